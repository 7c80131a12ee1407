import Verif.Spec.SameMaps
import Verif.Props.SpreadingMaps
import Verif.Props.SavedRuns
import Verif.Props.ReadFiles
/-!
# C176: results depend on the maps, not on the files that hold them
-/
namespace Strata.SameMaps
open Strata Strata.Flow Strata.Files Strata.Bytes Strata.Driver Strata.SpreadingFiles Strata.Average Strata.Spec

/-! ### Spreading -/

/-- Two frames that differ at most in the name of their file. -/
def SameFrame (f g : Spreading.Frame) : Prop := f.box = g.box ∧ f.edges = g.edges

theorem step_same (dt : ℚ) (save save' : Bool) {s s' : Spreading.State} (h : s.info = s'.info ∧ s.time = s'.time ∧ s.rows = s'.rows) (i i' : ℕ) {f f' : Spreading.Frame} (hf : SameFrame f f') :
    (Spreading.step dt save s i f).info = (Spreading.step dt save' s' i' f').info ∧ (Spreading.step dt save s i f).time = (Spreading.step dt save' s' i' f').time ∧
    (Spreading.step dt save s i f).rows = (Spreading.step dt save' s' i' f').rows := by
  obtain ⟨h1, h2, h3⟩ := h
  obtain ⟨g1, g2⟩ := hf
  unfold Spreading.step
  rw [g2]
  cases f'.edges with
  | none => exact ⟨h1, h2, h3⟩
  | some e => simp only [h1, h2, h3, g1, and_self]

theorem loop_same (dt : ℚ) (save save' : Bool) {frames frames' : List Spreading.Frame} (hf : List.Forall₂ SameFrame frames frames') :
    ∀ (s s' : Spreading.State) (i i' : ℕ), (s.info = s'.info ∧ s.time = s'.time ∧ s.rows = s'.rows) → (Spreading.loop dt save s i frames).rows = (Spreading.loop dt save' s' i' frames').rows := by
  induction hf with
  | nil => intro s s' i i' h; exact h.2.2
  | cons hd _ ih => intro s s' i i' h; exact ih _ _ _ _ (step_same dt save save' h i i' hd)

theorem frameOf_name (f : Flow) (n n' : Text) (r : ℚ) (fl : Option ℚ) (o : Interface.Opts) :
    (∀ e, Spreading.frameOf f n r fl o = .error e → Spreading.frameOf f n' r fl o = .error e) ∧
    ∀ x, Spreading.frameOf f n r fl o = .ok x → ∃ x', Spreading.frameOf f n' r fl o = .ok x' ∧ SameFrame x x' := by
  unfold Spreading.frameOf
  cases Spreading.cells f.data "M" with
  | error e => exact ⟨fun _ h => h, fun _ h => by cases h⟩
  | ok s =>
    simp only [bind, Except.bind]
    cases Spreading.spreadingEdges s (boxSize f) r fl { o with longest := true } with
    | error e => exact ⟨fun _ h => h, fun _ h => by cases h⟩
    | ok e =>
      simp only
      cases e with
      | none => exact ⟨fun _ h => by (cases h), fun x h => by cases h; exact ⟨_, rfl, rfl, rfl⟩⟩
      | some e =>
        cases boxSize f with
        | none => exact ⟨fun _ h => h, fun _ h => by (cases h)⟩
        | some b => exact ⟨fun _ h => by (cases h), fun x h => by cases h; exact ⟨_, rfl, rfl, rfl⟩⟩

theorem fileFrame_same {F : F32} (o : CollectOpts) {fs fs' : FS Bytes} {n n' : Text} (h : ∃ c c', fs.get? (splitPath n) = some c ∧ fs'.get? (splitPath n') = some c' ∧ readDataFile F c = readDataFile F c') :
    (∀ e, fileFrame (readFlow F) o fs n = .error e → fileFrame (readFlow F) o fs' n' = .error e) ∧
    ∀ x, fileFrame (readFlow F) o fs n = .ok x → ∃ x', fileFrame (readFlow F) o fs' n' = .ok x' ∧ SameFrame x x' := by
  obtain ⟨c, c', h1, h2, h3⟩ := h
  unfold fileFrame
  rw [h1, h2]
  have hr : readFlow F c' = readFlow F c := by unfold readFlow; rw [h3]
  simp only [Option.elim_some, hr]
  cases readFlow F c with
  | error e => exact ⟨fun _ h => h, fun _ h => by cases h⟩
  | ok f => exact frameOf_name f n n' o.radius o.floor o.interface

theorem reached_same {F : F32} (o : CollectOpts) {fs fs' : FS Bytes} {names names' : List Text} (h : SameMaps F fs names fs' names') :
    ∀ {frames frames' : List Spreading.Frame} {out out' : Except Err Unit}, Reached (readFlow F) o fs names frames out → Reached (readFlow F) o fs' names' frames' out' →
      List.Forall₂ SameFrame frames frames' ∧ out = out' := by
  unfold SameMaps at h
  induction h with
  | nil =>
    rintro frames frames' out out' ⟨k, hk, h1, h2⟩ ⟨k', hk', h1', h2'⟩
    rw [List.take_nil] at h1 h1'
    cases h1
    cases h1'
    rcases h2 with ⟨-, h2⟩ | ⟨n, e, h2, -, -⟩
    · rcases h2' with ⟨-, h2'⟩ | ⟨n, e, h2', -, -⟩
      · exact ⟨.nil, by rw [h2, h2']⟩
      · cases h2'
    · cases h2
  | @cons n n' names names' hn _ ih =>
    rintro frames frames' out out' ⟨k, hk, h1, h2⟩ ⟨k', hk', h1', h2'⟩
    obtain ⟨g1, g2⟩ := fileFrame_same (F := F) o hn
    cases k with
    | zero =>
      rw [List.take_zero] at h1
      cases h1
      rcases h2 with ⟨h2, -⟩ | ⟨m, e, h2, h3, h4⟩
      · cases h2
      · cases h2
        have h5 := g1 e h3
        cases k' with
        | zero =>
          rw [List.take_zero] at h1'
          cases h1'
          rcases h2' with ⟨h2', -⟩ | ⟨m', e', h2', h3', h4'⟩
          · cases h2'
          · cases h2'
            rw [h5] at h3'
            cases h3'
            exact ⟨.nil, by rw [h4, h4']⟩
        | succ k' =>
          rw [List.take_succ_cons] at h1'
          cases h1' with
          | cons h6 _ => rw [h5] at h6; cases h6
    | succ k =>
      rw [List.take_succ_cons] at h1
      cases h1 with
      | cons h6 h7 =>
        obtain ⟨x', hx, hxs⟩ := g2 _ h6
        cases k' with
        | zero =>
          rcases h2' with ⟨h2', -⟩ | ⟨m', e', h2', h3', h4'⟩
          · cases h2'
          · cases h2'
            rw [hx] at h3'
            cases h3'
        | succ k' =>
          rw [List.take_succ_cons] at h1'
          cases h1' with
          | cons h8 h9 =>
            rw [hx] at h8
            cases h8
            obtain ⟨i1, i2⟩ := ih (out := out) (out' := out') ⟨k, by simpa using hk, h7, by simpa using h2⟩ ⟨k', by simpa using hk', h9, by simpa using h2'⟩
            exact ⟨.cons hxs i1, i2⟩

/-- How a run can be described: what was reached, and its rows. -/
def Describes (F : F32) (o : CollectOpts) (fs : FS Bytes) (names : List Text) (flag : Bool) (r : Run Bytes) : Prop :=
  ∃ frames, Reached (readFlow F) o fs names frames r.outcome ∧ r.rows = (Spreading.collect o.dt o.t0 true flag frames).rows

theorem describes (F : F32) (h : SpreadingText.Header) (save : Option Text) (o : CollectOpts) (flag : Bool) (fs : FS Bytes) (dir : Dir) (base ext : Text) (b : ℤ) (e : Option ℤ)
    (hin : ∀ out, save = some out → ∀ n ∈ yieldSingles dir base ext b e, splitPath n ≠ splitPath out ∧ fs.get? (splitPath n) ≠ none) :
    Describes F o fs (yieldSingles dir base ext b e) flag (collectFiles (readFlow F) byteStore h save o flag fs dir base ext b e) := by
  cases save with
  | none =>
    obtain ⟨-, -, frames, h1, h2⟩ := C121_not_saved (readFlow F) byteStore h o flag fs dir base ext b e
    exact ⟨frames, h1, h2⟩
  | some out =>
    obtain ⟨frames, h1, h2, -⟩ := C121_saved (readFlow F) byteStore byteStore_lawful h out o flag fs dir base ext b e (hin out rfl)
    exact ⟨frames, h1, h2⟩

theorem sameMaps_exist {F : F32} {fs fs' : FS Bytes} {names names' : List Text} (h : SameMaps F fs names fs' names') :
    (∀ n ∈ names, fs.get? (splitPath n) ≠ none) ∧ ∀ n ∈ names', fs'.get? (splitPath n) ≠ none := by
  unfold SameMaps at h
  induction h with
  | nil => simp
  | cons hd _ ih =>
    obtain ⟨c, c', h1, h2, -⟩ := hd
    simp only [List.forall_mem_cons]
    exact ⟨⟨by rw [h1]; simp, ih.1⟩, by rw [h2]; simp, ih.2⟩

/-- **C176, spreading curves.** Two series of files that are read as the same maps have the same spreading curve, whatever the names and formats of the files are and whether or where it is saved (but
not to one of the files themselves); the calls end in the same way. -/
theorem C176_spreading (F : F32) (o : CollectOpts) (h h' : SpreadingText.Header) (save save' : Option Text) (flag flag' : Bool) (fs fs' : FS Bytes) (dir dir' : Dir) (base base' ext ext' : Text) (b b' : ℤ)
    (e e' : Option ℤ) (hs : SameMaps F fs (yieldSingles dir base ext b e) fs' (yieldSingles dir' base' ext' b' e'))
    (hin : ∀ out, save = some out → ∀ n ∈ yieldSingles dir base ext b e, splitPath n ≠ splitPath out)
    (hin' : ∀ out, save' = some out → ∀ n ∈ yieldSingles dir' base' ext' b' e', splitPath n ≠ splitPath out) :
    (collectFiles (readFlow F) byteStore h save o flag fs dir base ext b e).rows = (collectFiles (readFlow F) byteStore h' save' o flag' fs' dir' base' ext' b' e').rows ∧
    (collectFiles (readFlow F) byteStore h save o flag fs dir base ext b e).outcome = (collectFiles (readFlow F) byteStore h' save' o flag' fs' dir' base' ext' b' e').outcome := by
  obtain ⟨x1, x2⟩ := sameMaps_exist hs
  obtain ⟨frames, r1, r2⟩ := describes F h save o flag fs dir base ext b e fun out ho n hn => ⟨hin out ho n hn, x1 n hn⟩
  obtain ⟨frames', r1', r2'⟩ := describes F h' save' o flag' fs' dir' base' ext' b' e' fun out ho n hn => ⟨hin' out ho n hn, x2 n hn⟩
  obtain ⟨s1, s2⟩ := reached_same o hs r1 r1'
  refine ⟨?_, s2⟩
  rw [r2, r2']
  exact loop_same o.dt true true s1 _ _ 0 0 ⟨rfl, rfl, rfl⟩

/-! ### Samples -/

theorem runFiles_same {F : F32} (o : SampleSeries.Opts) (dt : ℚ) (labels : List Label) (line : ℚ × List SampleSeries.Value → Text) {fs fs' : FS Bytes} {names names' : List Text} (h : SameMaps F fs names fs' names') :
    ∀ i : ℕ, (SavedRuns.runFiles (SavedRuns.averageItem (CommandSeries.readMap F) o dt labels) line byteStore none fs i names).2 =
      (SavedRuns.runFiles (SavedRuns.averageItem (CommandSeries.readMap F) o dt labels) line byteStore none fs' i names').2 := by
  unfold SameMaps at h
  induction h with
  | nil => intro i; rfl
  | cons hd _ ih =>
    intro i
    obtain ⟨c, c', h1, h2, h3⟩ := hd
    have hi : SavedRuns.averageItem (CommandSeries.readMap F) o dt labels i (some c) = SavedRuns.averageItem (CommandSeries.readMap F) o dt labels i (some c') := by
      unfold SavedRuns.averageItem CommandSeries.readMap
      simp only [h3]
    unfold SavedRuns.runFiles
    rw [h1, h2, hi]
    cases SavedRuns.averageItem (CommandSeries.readMap F) o dt labels i (some c') with
    | stop _ => rfl
    | skip => exact ih (i + 1)
    | row r =>
      simp only [Option.elim_none]
      rw [ih (i + 1)]

/-- **C176, samples.** The same for sampled series: rows and outcome. -/
theorem C176_samples (F : F32) (o : SampleSeries.Opts) (dt : ℚ) (labels : List Label) (line : ℚ × List SampleSeries.Value → Text) (head head' : List Text) (save save' : Option Text) (fs fs' : FS Bytes)
    (dir dir' : Dir) (base base' ext ext' : Text) (b b' : ℤ) (e e' : Option ℤ) (hs : SameMaps F fs (yieldSingles dir base ext b e) fs' (yieldSingles dir' base' ext' b' e'))
    (hin : ∀ out, save = some out → ∀ n ∈ yieldSingles dir base ext b e, splitPath n ≠ splitPath out)
    (hin' : ∀ out, save' = some out → ∀ n ∈ yieldSingles dir' base' ext' b' e', splitPath n ≠ splitPath out) :
    (SavedRuns.run (SavedRuns.averageItem (CommandSeries.readMap F) o dt labels) line byteStore head save fs dir base ext b e).2 =
      (SavedRuns.run (SavedRuns.averageItem (CommandSeries.readMap F) o dt labels) line byteStore head' save' fs' dir' base' ext' b' e').2 := by
  obtain ⟨x1, x2⟩ := sameMaps_exist hs
  have key : ∀ (head : List Text) (save : Option Text) (fs : FS Bytes) (dir : Dir) (base ext : Text) (b : ℤ) (e : Option ℤ), (∀ n ∈ yieldSingles dir base ext b e, fs.get? (splitPath n) ≠ none) →
      (∀ out, save = some out → ∀ n ∈ yieldSingles dir base ext b e, splitPath n ≠ splitPath out) →
      (SavedRuns.run (SavedRuns.averageItem (CommandSeries.readMap F) o dt labels) line byteStore head save fs dir base ext b e).2 =
        (SavedRuns.runFiles (SavedRuns.averageItem (CommandSeries.readMap F) o dt labels) line byteStore none fs 0 (yieldSingles dir base ext b e)).2 := by
    intro head save fs dir base ext b e hx hi
    cases save with
    | none => rfl
    | some out => exact SavedRuns.C123_same _ line byteStore byteStore_lawful head out fs dir base ext b e fun n hn => ⟨hi out rfl n hn, hx n hn⟩
  rw [key head save fs dir base ext b e x1 hin, key head' save' fs' dir' base' ext' b' e' x2 hin']
  exact runFiles_same o dt labels line hs 0

/-! ### Converted files -/

/-- The files of a converted series are found like those of the series. -/
theorem found_converted (dir dir' : Dir) (base output ext ext' : Text) (b : ℤ) (e : Option ℤ) (hdir : ∀ n, fileName output ext' n ∈ dir' ↔ fileName base ext n ∈ dir) :
    ∃ k : ℕ, yieldSingles dir base ext b e = (List.range k).map (fun i : ℕ => fileName base ext (b + i)) ∧ yieldSingles dir' output ext' b e = (List.range k).map (fun i : ℕ => fileName output ext' (b + i)) := by
  obtain ⟨k, h1, h2, h3⟩ := C02_discovery_maximal_prefix dir base ext b e
  obtain ⟨k', h1', h2', h3'⟩ := C02_discovery_maximal_prefix dir' output ext' b e
  have : k = k' := by
    rcases Nat.lt_trichotomy k k' with hlt | heq | hlt
    · exfalso
      obtain ⟨g1, g2⟩ := h2' k hlt
      obtain ⟨m, hm, hlt'⟩ := h3 ((hdir _).mp g1)
      have := g2 m hm
      omega
    · exact heq
    · exfalso
      obtain ⟨g1, g2⟩ := h2 k' hlt
      obtain ⟨m, hm, hlt'⟩ := h3' ((hdir _).mpr g1)
      have := g2 m hm
      omega
  subst this
  exact ⟨k, h1, h1'⟩

/-- **C176, converted files.** A series of gmx files that is converted to gmx files elsewhere holds the same maps (in IEEE single precision, without infinite values and with nothing in bins without mass), so that
its spreading curve and its samples are those of the series. -/
theorem C176_converted (fs : FS Bytes) (dir dir' : Dir) (base output ext : Text) (outext : Option Text) (b : ℤ) (e : Option ℤ)
    (hslash : '/' ∉ outext.getD ext) (hdir : ∀ n, fileName base ext n ∈ dir → fs.get? (splitPath (fileName base ext n)) ≠ none)
    (hcross : ∀ m n, m < n → splitPath (fileName output (outext.getD ext) m) ≠ splitPath (fileName base ext n))
    (hall : ∀ n, fileName base ext n ∈ yieldSingles dir base ext b e → ∀ c, fs.get? (splitPath (fileName base ext n)) = some c →
      Gmx.isGmx c = true ∧ ∃ m, readDataFile ieee32 c = .ok m ∧ EnoughMass m.1 (m.2.1.shape.1 * m.2.1.shape.2) ∧ SixDecimals m.2.1 ∧
        (∀ t, t < m.2.1.shape.1 * m.2.1.shape.2 → ∀ l ∈ ["N", "T", "M", "U", "V"], |val m.1 l t| ≤ (2 ^ 24 - 1) * 2 ^ 104 ∧ (val m.1 "M" t = 0 → val m.1 l t = 0)))
    (hdir' : ∀ n, fileName output (outext.getD ext) n ∈ dir' ↔ fileName base ext n ∈ dir) :
    SameMaps ieee32 fs (yieldSingles dir base ext b e) (convertFiles ieee32 "gmx" fs dir base output ext outext b e).1 (yieldSingles dir' output (outext.getD ext) b e) := by
  obtain ⟨k, h1, h2⟩ := found_converted dir dir' base output ext (outext.getD ext) b e hdir'
  have hsame := C114_gmx_to_gmx_identical_partial fs dir base output ext outext b e hslash hdir hcross hall
  unfold SameMaps
  rw [h2]
  rw [h1] at hsame ⊢
  rw [List.forall₂_map_left_iff, List.forall₂_map_right_iff, List.forall₂_same]
  intro i hi
  obtain ⟨c, c', g1, g2, -, g4⟩ := hsame (b + i) (List.mem_map.mpr ⟨i, hi, rfl⟩)
  exact ⟨c, c', g1, g2, g4.symm⟩

/-! ### Cases -/

/-- The first three maps of the cases of C121 in files with other names, of which the second one has more bytes behind its data. -/
def others : FS Bytes := [(("x".toList, "m00005.map".toList), exBytes []), (("x".toList, "m00006.map".toList), exBytes exWet ++ [0, 0]), (("x".toList, "m00007.map".toList), exBytes exWet')]

theorem found_first : yieldSingles exDir "a".toList [] 1 (some 3) = ["a00001".toList, "a00002".toList, "a00003".toList] := by decide +kernel

theorem found_others : yieldSingles ["x/m00005.map".toList, "x/m00006.map".toList, "x/m00007.map".toList] "x/m".toList ".map".toList 5 none =
    ["x/m00005.map".toList, "x/m00006.map".toList, "x/m00007.map".toList] := by decide +kernel

theorem others_read : readDataFile ieee32 (exBytes exWet) = readDataFile ieee32 (exBytes exWet ++ [0, 0]) := by decide +kernel

theorem first_1 : exFiles.get? (splitPath "a00001".toList) = some (exBytes []) := by decide +kernel
theorem first_2 : exFiles.get? (splitPath "a00002".toList) = some (exBytes exWet) := by decide +kernel
theorem first_3 : exFiles.get? (splitPath "a00003".toList) = some (exBytes exWet') := by decide +kernel
theorem others_1 : others.get? (splitPath "x/m00005.map".toList) = some (exBytes []) := by decide +kernel
theorem others_2 : others.get? (splitPath "x/m00006.map".toList) = some (exBytes exWet ++ [0, 0]) := by decide +kernel
theorem others_3 : others.get? (splitPath "x/m00007.map".toList) = some (exBytes exWet') := by decide +kernel

theorem sameMaps_three {F : F32} {fs fs' : FS Bytes} {n1 n2 n3 n1' n2' n3' : Text} {c1 c2 c3 c2' : Bytes} (h1 : fs.get? (splitPath n1) = some c1) (h2 : fs.get? (splitPath n2) = some c2)
    (h3 : fs.get? (splitPath n3) = some c3) (h1' : fs'.get? (splitPath n1') = some c1) (h2' : fs'.get? (splitPath n2') = some c2') (h3' : fs'.get? (splitPath n3') = some c3)
    (h : readDataFile F c2 = readDataFile F c2') : SameMaps F fs [n1, n2, n3] fs' [n1', n2', n3'] :=
  List.Forall₂.cons ⟨c1, c1, h1, h1', rfl⟩ (List.Forall₂.cons ⟨c2, c2', h2, h2', h⟩ (List.Forall₂.cons ⟨c3, c3, h3, h3', rfl⟩ List.Forall₂.nil))

example : SameMaps ieee32 exFiles (yieldSingles exDir "a".toList [] 1 (some 3)) others (yieldSingles ["x/m00005.map".toList, "x/m00006.map".toList, "x/m00007.map".toList] "x/m".toList ".map".toList 5 none) := by
  rw [found_first, found_others]
  exact sameMaps_three first_1 first_2 first_3 others_1 others_2 others_3 others_read

/-- The curve they share is not trivial. -/
example : (collectFiles (readFlow ieee32) byteStore SpreadingText.exHeader none exOpts false others ["x/m00005.map".toList, "x/m00006.map".toList, "x/m00007.map".toList] "x/m".toList ".map".toList 5 none).rows =
    [⟨0, 1 / 4, 5 / 4, 7 / 4⟩, ⟨2, 1 / 2, 7 / 4, 11 / 4⟩] := by decide +kernel

/-- A gmx file and the hypotheses of `C176_converted`. -/
example : SameMaps ieee32 (exFs1 exGmx) (yieldSingles ["a00001".toList] "a".toList [] 1 none) (convertFiles ieee32 "gmx" (exFs1 exGmx) ["a00001".toList] "a".toList "b".toList [] none 1 none).1
    (yieldSingles ["b00001".toList] "b".toList [] 1 none) := by
  refine C176_converted (exFs1 exGmx) ["a00001".toList] ["b00001".toList] "a".toList "b".toList [] none 1 none (by simp) (exFs1_found exGmx (fun _ => True) trivial).2.1 ?_
    (exFs1_found exGmx _ ⟨by decide +kernel, exMapG, exGmx_read, exRec_mass, exMap_decimals.2, by decide +kernel⟩).2.2 ?_
  · intro m n _ h
    unfold fileName at h
    rw [List.append_assoc, List.append_assoc, splitPath_append _ _ (by simp [fmt05_noslash]), splitPath_append _ _ (by simp [fmt05_noslash]), Prod.mk.injEq] at h
    have hb : (splitPath "b".toList).2 = "b".toList := by decide +kernel
    have ha : (splitPath "a".toList).2 = "a".toList := by decide +kernel
    rw [hb, ha] at h
    simp at h
  · intro n
    have ha : "a00001".toList = fileName "a".toList [] 1 := by decide +kernel
    have hb : "b00001".toList = fileName "b".toList ((none : Option Text).getD []) 1 := by decide +kernel
    rw [ha, hb, List.mem_singleton, List.mem_singleton]
    constructor
    · intro h; rw [C01_names_injective _ _ _ _ h]
    · intro h; rw [C01_names_injective _ _ _ _ h]

end Strata.SameMaps
