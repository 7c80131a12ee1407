import Verif.Spec.SameMaps
import Verif.Props.SavedRuns
/-!
# C176: samples and contact angles of series of files that hold the same interfaces
-/
namespace Strata.SameMaps
open Strata Strata.Files Strata.SpreadingText Strata.SpreadingFiles Strata.InterfaceFiles Strata.InterfaceText Strata.SavedRuns

variable {γ : Type}

theorem interfaces_exist {text : γ → Text} {fs fs' : FS γ} {names names' : List Text} (h : SameInterfaces text fs names fs' names') :
    (∀ n ∈ names, fs.get? (splitPath n) ≠ none) ∧ ∀ n ∈ names', fs'.get? (splitPath n) ≠ none := by
  unfold SameInterfaces at h
  induction h with
  | nil => simp
  | cons hd _ ih =>
    obtain ⟨c, c', h1, h2, -⟩ := hd
    simp only [List.forall_mem_cons]
    exact ⟨⟨by rw [h1]; simp, ih.1⟩, by rw [h2]; simp, ih.2⟩

theorem runFiles_interfaces (text : γ → Text) (v : Variable) (dt : ℚ) (line : ℚ × ℝ → Text) (st : Store γ) {fs fs' : FS γ} {names names' : List Text} (h : SameInterfaces text fs names fs' names') :
    ∀ i : ℕ, (runFiles (interfaceItem text v dt) line st none fs i names).2 = (runFiles (interfaceItem text v dt) line st none fs' i names').2 := by
  unfold SameInterfaces at h
  induction h with
  | nil => intro i; rfl
  | cons hd _ ih =>
    intro i
    obtain ⟨c, c', h1, h2, h3⟩ := hd
    have hi : interfaceItem text v dt i (some c) = interfaceItem text v dt i (some c') := by
      unfold interfaceItem
      simp only [h3]
    unfold runFiles
    rw [h1, h2, hi]
    cases interfaceItem text v dt i (some c') with
    | stop _ => rfl
    | skip => exact ih (i + 1)
    | row r =>
      simp only [Option.elim_none]
      rw [ih (i + 1)]

/-- **C176, sampled interfaces.** Two series of files that are read as the same interfaces have the same samples and end in the same way, under whatever names, with or without comments and other
spacing, and whether or where the samples are saved (but not to one of the files). -/
theorem C176_interface_samples (text : γ → Text) (v : Variable) (dt : ℚ) (line : ℚ × ℝ → Text) (st : Store γ) (hl : st.Lawful) (head head' : List Text) (save save' : Option Text) (fs fs' : FS γ)
    (dir dir' : Dir) (base base' ext ext' : Text) (b b' : ℤ) (e e' : Option ℤ) (hs : SameInterfaces text fs (yieldSingles dir base ext b e) fs' (yieldSingles dir' base' ext' b' e'))
    (hin : ∀ out, save = some out → ∀ n ∈ yieldSingles dir base ext b e, splitPath n ≠ splitPath out)
    (hin' : ∀ out, save' = some out → ∀ n ∈ yieldSingles dir' base' ext' b' e', splitPath n ≠ splitPath out) :
    (run (interfaceItem text v dt) line st head save fs dir base ext b e).2 = (run (interfaceItem text v dt) line st head' save' fs' dir' base' ext' b' e').2 := by
  obtain ⟨x1, x2⟩ := interfaces_exist hs
  have key : ∀ (head : List Text) (save : Option Text) (fs : FS γ) (dir : Dir) (base ext : Text) (b : ℤ) (e : Option ℤ), (∀ n ∈ yieldSingles dir base ext b e, fs.get? (splitPath n) ≠ none) →
      (∀ out, save = some out → ∀ n ∈ yieldSingles dir base ext b e, splitPath n ≠ splitPath out) →
      (run (interfaceItem text v dt) line st head save fs dir base ext b e).2 = (runFiles (interfaceItem text v dt) line st none fs 0 (yieldSingles dir base ext b e)).2 := by
    intro head save fs dir base ext b e hx hi
    cases save with
    | none => rfl
    | some out => exact C123_same _ line st hl head out fs dir base ext b e fun n hn => ⟨hi out rfl n hn, hx n hn⟩
  rw [key head save fs dir base ext b e x1 hin, key head' save' fs' dir' base' ext' b' e' x2 hin']
  exact runFiles_interfaces text v dt line st hs 0

theorem mapM_interfaces (text : γ → Text) (fit : Bool) (height : Option ℚ) {fs fs' : FS γ} {names names' : List Text} (h : SameInterfaces text fs names fs' names') :
    names.mapM (angleItem text fit height fs) = names'.mapM (angleItem text fit height fs') := by
  unfold SameInterfaces at h
  induction h with
  | nil => rfl
  | @cons n n' _ _ hd _ ih =>
    obtain ⟨c, c', h1, h2, h3⟩ := hd
    have hi : angleItem text fit height fs n = angleItem text fit height fs' n' := by
      unfold angleItem contentOf
      rw [h1, h2]
      simp only [Option.elim_some, Gmx.ok_bind, h3]
    rw [List.mapM_cons, List.mapM_cons, hi, ih]

/-- **C176, contact angles.** The same for the contact angles of a series of interfaces; they are read before the output is written, which may be any file. -/
theorem C176_angles (text : γ → Text) (encode : Text → γ) (head head' : List Text) (save save' : Option Text) (fit : Bool) (height : Option ℚ) (dt : ℚ) (fs fs' : FS γ) (dir dir' : Dir)
    (base base' ext ext' : Text) (b b' : ℤ) (e e' : Option ℤ) (hs : SameInterfaces text fs (yieldSingles dir base ext b e) fs' (yieldSingles dir' base' ext' b' e')) :
    (angleRun text encode head save fit height dt fs dir base ext b e).2 = (angleRun text encode head' save' fit height dt fs' dir' base' ext' b' e').2 := by
  have key : ∀ (head : List Text) (save : Option Text) (fs : FS γ) (dir : Dir) (base ext : Text) (b : ℤ) (e : Option ℤ), (angleRun text encode head save fit height dt fs dir base ext b e).2 =
      match (yieldSingles dir base ext b e).mapM (angleItem text fit height fs) with
      | .error e => .error e
      | .ok files => contactAngles fit height dt files := by
    intro head save fs dir base ext b e
    unfold angleRun
    cases (yieldSingles dir base ext b e).mapM (angleItem text fit height fs) with
    | error e => rfl
    | ok files =>
      simp only
      cases contactAngles fit height dt files with
      | error e => rfl
      | ok r =>
        cases save with
        | none => rfl
        | some out =>
          obtain ⟨fs1, h1, -⟩ := prepared fs (splitPath out) (encode [])
          simp only [h1]
  rw [key, key, mapM_interfaces text fit height hs]

/-- How many interfaces are collected if nothing fails. -/
theorem collected_all (c : Centre) (o : Interface.Opts) : ∀ (maps : List Strata.Flow.Flow) (m : Memory), (collectInterfaces c o m maps).2 = .ok () → (collectInterfaces c o m maps).1.length = maps.length
  | [], _, _ => rfl
  | f :: fs, m, h => by
    rw [collectInterfaces] at h ⊢
    cases hi : interfaceCoordinates f "M" m c o with
    | error e => rw [hi] at h; cases h
    | ok r =>
      rw [hi] at h
      simp only [List.length_cons]
      rw [collected_all c o fs r.2 h]

/-- **C176, collected interfaces.** The interfaces of two series of files that are read as the same maps are the same, number by number, and collecting them ends in the same way, under whatever names
and with whatever headers they are written. -/
theorem C176_interfaces (read : γ → Except Err Strata.Flow.Flow) (write : Text → γ) (text : γ → Text) (hcodec : ∀ t, text (write t) = t) (head head' : Text → Head) (hhead : ∀ n, (head n).OneLine)
    (hhead' : ∀ n, (head' n).OneLine) (c : Centre) (o : Interface.Opts) (fs fs' : FS γ) (dir dir' : Dir) (base base' output output' ext ext' : Text) (outext outext' : Option Text) (b b' : ℤ) (e e' : Option ℤ)
    (maps : List Strata.Flow.Flow) (hmaps : List.Forall₂ (fun n f => (contentOf fs n).bind read = .ok f) (yieldSingles dir base ext b e) maps)
    (hmaps' : List.Forall₂ (fun n f => (contentOf fs' n).bind read = .ok f) (yieldSingles dir' base' ext' b' e') maps)
    (hslash : '/' ∉ outext.getD ".xvg".toList) (hslash' : '/' ∉ outext'.getD ".xvg".toList)
    (hcross : ∀ m n, m < n → splitPath (Files.fileName output (outext.getD ".xvg".toList) m) ≠ splitPath (Files.fileName base ext n))
    (hcross' : ∀ m n, m < n → splitPath (Files.fileName output' (outext'.getD ".xvg".toList) m) ≠ splitPath (Files.fileName base' ext' n)) :
    (collectSeries read write head c o fs dir base output ext outext b e).2 = (collectSeries read write head' c o fs' dir' base' output' ext' outext' b' e').2 ∧
    ∃ n : ℕ, n ≤ maps.length ∧ ((collectSeries read write head c o fs dir base output ext outext b e).2 = .ok () → n = maps.length) ∧
      SameInterfaces text (collectSeries read write head c o fs dir base output ext outext b e).1 ((List.range n).map fun i : ℕ => Files.fileName output (outext.getD ".xvg".toList) (b + i))
        (collectSeries read write head' c o fs' dir' base' output' ext' outext' b' e').1 ((List.range n).map fun i : ℕ => Files.fileName output' (outext'.getD ".xvg".toList) (b' + i)) := by
  obtain ⟨h1, hlen, h2, -⟩ := collectSeries_spec read write head c o fs dir base output ext outext b e maps hmaps hslash hcross
  obtain ⟨h1', -, h2', -⟩ := collectSeries_spec read write head' c o fs' dir' base' output' ext' outext' b' e' maps hmaps' hslash' hcross'
  refine ⟨by rw [h1, h1'], (collectInterfaces c o none maps).1.length, hlen, fun h => collected_all c o maps none (by rw [← h1]; exact h), ?_⟩
  unfold SameInterfaces
  rw [List.forall₂_map_left_iff] at h2 h2' ⊢
  rw [List.forall₂_map_right_iff, List.forall₂_same]
  intro i hi
  have hi' := List.mem_range.mp hi
  obtain ⟨pts, p1, p2, p3⟩ := (List.forall₂_iff_get.mp h2).2 i (by simpa using hi') hi'
  obtain ⟨pts', p1', p2', p3'⟩ := (List.forall₂_iff_get.mp h2').2 i (by simpa using hi') hi'
  simp only [List.get_eq_getElem, List.getElem_range] at p1 p1' p3 p3'
  refine ⟨_, _, p3, p3', ?_⟩
  rw [hcodec, hcodec, readPoints_interface _ (hhead _) pts p2, readPoints_interface _ (hhead' _) pts' p2']
  have : fileRows pts = fileRows pts' := by rw [p1, p1']
  exact congrArg Except.ok this

/-! ### Cases -/

/-- Two files with the same interface, of which one has a comment and other spacing. -/
def written : FS Text := [((".".toList, "a00001.xvg".toList), "0 0\n1 2\n3 0\n".toList)]
def rewritten : FS Text := [(("x".toList, "m00007".toList), "# an interface\n0.0   0\n1 2.00\n\n3 0.0\n".toList)]

example : SameInterfaces id written (yieldSingles ["a00001.xvg".toList] "a".toList ".xvg".toList 1 none) rewritten (yieldSingles ["x/m00007".toList] "x/m".toList [] 7 none) := by
  have h1 : yieldSingles ["a00001.xvg".toList] "a".toList ".xvg".toList 1 none = ["a00001.xvg".toList] := by decide +kernel
  have h2 : yieldSingles ["x/m00007".toList] "x/m".toList [] 7 none = ["x/m00007".toList] := by decide +kernel
  rw [h1, h2]
  refine List.Forall₂.cons ⟨"0 0\n1 2\n3 0\n".toList, "# an interface\n0.0   0\n1 2.00\n\n3 0.0\n".toList, ?_, ?_, ?_⟩ List.Forall₂.nil <;> decide +kernel

example : (readPoints "# an interface\n0.0   0\n1 2.00\n\n3 0.0\n".toList).isOk = true := by decide +kernel

/-- The maps of the cases of C106, and the same ones under other names, meet the hypotheses of `C176_interfaces`. -/
example : (collectSeries exRead Sum.inl (fun _ => exHead []) .zero crossingOpts InterfaceText.exFs InterfaceText.exDir "a".toList "o".toList ".dat".toList none 1 none).2 =
    (collectSeries exRead Sum.inl (fun _ => exHead []) .zero crossingOpts
      [((".".toList, "a00005.dat".toList), .inr (crossingMap [1, 1, 0, 0, 0, 0, 1, 1, 1, 1])), ((".".toList, "a00006.dat".toList), .inr (crossingMap [1, 1, 1, 1, 0, 0, 0, 0, 1, 1]))]
      ["a00005.dat".toList, "a00006.dat".toList] "a".toList "o".toList ".dat".toList none 5 none).2 := by
  have h : yieldSingles ["a00005.dat".toList, "a00006.dat".toList] "a".toList ".dat".toList 5 none = ["a00005.dat".toList, "a00006.dat".toList] := by decide +kernel
  exact (C176_interfaces exRead Sum.inl exText (fun _ => rfl) (fun _ => exHead []) (fun _ => exHead []) (fun _ => exHead_oneLine [] (by simp)) (fun _ => exHead_oneLine [] (by simp)) .zero crossingOpts
    InterfaceText.exFs _ InterfaceText.exDir _ "a".toList "a".toList "o".toList "o".toList ".dat".toList ".dat".toList none none 1 5 none none _ exMaps (by rw [h]; exact .cons rfl (.cons rfl .nil)) (by decide)
    (by decide) (fun m n _ => exCross m n) (fun m n _ => exCross m n)).1

end Strata.SameMaps
