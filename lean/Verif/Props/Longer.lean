import Verif.Props.SpreadingMaps
import Verif.Spec.Longer
import Verif.Props.SpreadingFiles
import Verif.Props.SampleSeries
import Verif.Props.InterfaceFiles
import Verif.Props.ContactLine
/-!
# C173: what is known of a series does not change when it goes on
-/
namespace Strata.Longer
open Strata Strata.Flow Strata.Files Strata.Spec

theorem range_prefix {α : Type} (g : ℕ → α) {k k' : ℕ} (h : k ≤ k') : (List.range k).map g <+: (List.range k').map g := by
  obtain ⟨d, rfl⟩ := Nat.exists_eq_add_of_le h
  rw [List.range_add, List.map_append]
  exact List.prefix_append _ _

/-- **C173, files.** When more files are there, or the search goes on further, the files found before are found first. -/
theorem C173_files {dir dir' : Dir} {e e' : Option ℤ} (h : GoesOn dir dir' e e') (base ext : Text) (b : ℤ) : yieldSingles dir base ext b e <+: yieldSingles dir' base ext b e' := by
  obtain ⟨k, h1, h2, -⟩ := C02_discovery_maximal_prefix dir base ext b e
  obtain ⟨k', h1', -, h3'⟩ := C02_discovery_maximal_prefix dir' base ext b e'
  rw [h1, h1']
  refine range_prefix _ ?_
  by_contra hlt
  have hlt : k' < k := by omega
  obtain ⟨m', hm', hlt'⟩ := h3' (h.files _ (h2 k' hlt).1)
  obtain ⟨m, hm, hle⟩ := h.last m' hm'
  have := (h2 k' hlt).2 m hm
  omega

/-- **C173, groups.** The same for groups of files, rolling or not. -/
theorem C173_groups {dir dir' : Dir} {e e' : Option ℤ} (h : GoesOn dir dir' e e') (base ext : Text) (g : ℕ) (hg : 1 ≤ g) (rolling : Bool) (b : ℤ) :
    yieldGroups dir base ext g rolling b e <+: yieldGroups dir' base ext g rolling b e' := by
  obtain ⟨k, h1, h2, -⟩ := C03_groups dir base ext g hg rolling b e
  obtain ⟨k', h1', -, j, hj, h3'⟩ := C03_groups dir' base ext g hg rolling b e'
  rw [h1, h1']
  refine range_prefix _ ?_
  by_contra hlt
  have hlt : k' < k := by omega
  rcases h3' with hno | ⟨m', hm', hlt'⟩
  · exact hno (h.files _ (h2 k' hlt j hj).1)
  · obtain ⟨m, hm, hle⟩ := h.last m' hm'
    have := (h2 k' hlt j hj).2 m hm
    omega

/-! ### Spreading curves -/

theorem step_grows (dt : ℚ) (save : Bool) (s : Spreading.State) (i : ℕ) (f : Spreading.Frame) : s.rows <+: (Spreading.step dt save s i f).rows ∧ s.lines <+: (Spreading.step dt save s i f).lines := by
  unfold Spreading.step
  split
  · exact ⟨List.prefix_refl _, List.prefix_refl _⟩
  · cases save
    · exact ⟨List.prefix_append _ _, List.prefix_refl _⟩
    · refine ⟨List.prefix_append _ _, ?_⟩
      simp only [if_true, List.append_assoc]
      exact List.prefix_append _ _

theorem loop_grows (dt : ℚ) (save : Bool) : ∀ (fs : List Spreading.Frame) (s : Spreading.State) (i : ℕ), s.rows <+: (Spreading.loop dt save s i fs).rows ∧ s.lines <+: (Spreading.loop dt save s i fs).lines
  | [], s, _ => ⟨List.prefix_refl _, List.prefix_refl _⟩
  | f :: fs, s, i => by
    obtain ⟨h1, h2⟩ := step_grows dt save s i f
    obtain ⟨h3, h4⟩ := loop_grows dt save fs (Spreading.step dt save s i f) (i + 1)
    exact ⟨h1.trans h3, h2.trans h4⟩

theorem loop_append (dt : ℚ) (save : Bool) : ∀ (fs gs : List Spreading.Frame) (s : Spreading.State) (i : ℕ),
    Spreading.loop dt save s i (fs ++ gs) = Spreading.loop dt save (Spreading.loop dt save s i fs) (i + fs.length) gs
  | [], _, _, _ => rfl
  | f :: fs, gs, s, i => by
    show Spreading.loop dt save (Spreading.step dt save s i f) (i + 1) (fs ++ gs) = _
    rw [loop_append dt save fs gs]
    show Spreading.loop dt save (Spreading.loop dt save (Spreading.step dt save s i f) (i + 1) fs) _ gs = Spreading.loop dt save (Spreading.loop dt save (Spreading.step dt save s i f) (i + 1) fs) _ gs
    congr 1
    simp only [List.length_cons]
    omega

/-- **C173, spreading.** Frames that come later change none of the rows and lines collected from the earlier ones. -/
theorem C173_spreading (dt t0 : ℚ) (save flag : Bool) (frames more : List Spreading.Frame) :
    (Spreading.collect dt t0 save flag frames).rows <+: (Spreading.collect dt t0 save flag (frames ++ more)).rows ∧
    (Spreading.collect dt t0 save flag frames).lines <+: (Spreading.collect dt t0 save flag (frames ++ more)).lines := by
  unfold Spreading.collect
  rw [loop_append]
  exact loop_grows dt save more _ _

theorem joinLines_prefix {a b : List Text} (h : a <+: b) : SpreadingText.joinLines a <+: SpreadingText.joinLines b := by
  obtain ⟨c, rfl⟩ := h
  unfold SpreadingText.joinLines
  rw [List.flatMap_append]
  exact List.prefix_append _ _

theorem savedFile_prefix (h : SpreadingText.Header) {a b : List Spreading.Line} (hab : a <+: b) : SpreadingText.savedFile h a <+: SpreadingText.savedFile h b := by
  obtain ⟨c, rfl⟩ := hab
  unfold SpreadingText.savedFile
  refine joinLines_prefix ?_
  rw [List.flatMap_append, ← List.append_assoc]
  exact List.prefix_append _ _

open SpreadingFiles in
/-- **C173, spreading, files.** A spreading curve is collected from the files of a series into an output, and again when the series has gone on: the files read before have not changed, the old ones were all good.
The rows of the first run are the first rows of the second one, and the text of the first output is the beginning of the second one. (The second run may fail at a later file.) -/
theorem C173_spreading_files {γ : Type} (read : γ → Except Err Flow) (st : Store γ) (hl : st.Lawful) (h : SpreadingText.Header) (out : Text) (o : CollectOpts) (flag : Bool) (fs fs' : FS γ) {dir dir' : Dir}
    (base ext : Text) (b : ℤ) {e e' : Option ℤ} (hg : GoesOn dir dir' e e')
    (hin : ∀ n ∈ yieldSingles dir' base ext b e', splitPath n ≠ splitPath out ∧ fs'.get? (splitPath n) ≠ none)
    (hsame : ∀ n ∈ yieldSingles dir base ext b e, fs'.get? (splitPath n) = fs.get? (splitPath n))
    (hok : (collectFiles read st h (some out) o flag fs dir base ext b e).outcome = .ok ()) :
    (collectFiles read st h (some out) o flag fs dir base ext b e).rows <+: (collectFiles read st h (some out) o flag fs' dir' base ext b e').rows ∧
    ∃ t t', (collectFiles read st h (some out) o flag fs dir base ext b e).fs.get? (splitPath out) = some (st.encode t) ∧
      (collectFiles read st h (some out) o flag fs' dir' base ext b e').fs.get? (splitPath out) = some (st.encode t') ∧ t <+: t' := by
  obtain ⟨rest, hrest⟩ := C173_files hg base ext b
  obtain ⟨frames, ⟨k, hk, hf, hend⟩, hrows, -, hfile, -⟩ := C121_saved read st hl h out o flag fs dir base ext b e fun n hn =>
    ⟨(hin n (by rw [← hrest]; exact List.mem_append_left _ hn)).1, by rw [← hsame n hn]; exact (hin n (by rw [← hrest]; exact List.mem_append_left _ hn)).2⟩
  obtain ⟨frames', ⟨k', hk', hf', hend'⟩, hrows', -, hfile', -⟩ := C121_saved read st hl h out o flag fs' dir' base ext b e' hin
  have hk1 : k = (yieldSingles dir base ext b e).length := by
    rcases hend with ⟨h1, -⟩ | ⟨n, er, -, -, h3⟩
    · exact h1
    · rw [hok] at h3; cases h3
  rw [hk1, List.take_length] at hf
  have hf2 : List.Forall₂ (fun n f => fileFrame read o fs' n = .ok f) (yieldSingles dir base ext b e) frames := by
    have : ∀ (ns : List Text) (frs : List Spreading.Frame), (∀ n ∈ ns, fs'.get? (splitPath n) = fs.get? (splitPath n)) → List.Forall₂ (fun n f => fileFrame read o fs n = .ok f) ns frs →
        List.Forall₂ (fun n f => fileFrame read o fs' n = .ok f) ns frs := by
      intro ns frs hs hf
      induction hf with
      | nil => exact .nil
      | cons h1 _ ih =>
        refine .cons ?_ (ih fun n hn => hs n (List.mem_cons_of_mem _ hn))
        rw [fileFrame_congr read o fs fs' _ (hs _ (List.mem_cons_self ..))]
        exact h1
    exact this _ _ hsame hf
  -- the second run got at least as far
  have hpre : frames <+: frames' := by
    rw [← hrest] at hf' hend' hk'
    have key : ∀ (ns : List Text) (frs : List Spreading.Frame), List.Forall₂ (fun n f => fileFrame read o fs' n = .ok f) ns frs → ∀ (k' : ℕ) (frs' : List Spreading.Frame),
        List.Forall₂ (fun n f => fileFrame read o fs' n = .ok f) ((ns ++ rest).take k') frs' →
        (k' = (ns ++ rest).length ∨ ∃ n er, (ns ++ rest)[k']? = some n ∧ fileFrame read o fs' n = .error er) → frs <+: frs' := by
      intro ns frs hf
      induction hf with
      | nil => intro k' frs' _ _; exact List.nil_prefix
      | @cons n f ns frs h1 _ ih =>
        intro k' frs' hf' hend'
        cases k' with
        | zero =>
          rcases hend' with h0 | ⟨m, er, h0, h2⟩
          · simp at h0
          · simp only [List.cons_append, List.getElem?_cons_zero, Option.some.injEq] at h0
            subst h0
            rw [h1] at h2
            cases h2
        | succ k' =>
          rw [List.cons_append, List.take_succ_cons] at hf'
          cases hf' with
          | @cons _ f' _ frs' h2 h3 =>
            have : f = f' := Except.ok.inj (h1.symm.trans h2)
            subst this
            obtain ⟨c, hc⟩ := ih k' frs' h3 (by
              rcases hend' with h0 | ⟨m, er, h0, h4⟩
              · left; simp only [List.cons_append, List.length_cons] at h0; omega
              · right; exact ⟨m, er, by simpa using h0, h4⟩)
            exact ⟨c, by rw [List.cons_append, hc]⟩
    exact key _ _ hf2 k' frames' hf' (by
      rcases hend' with ⟨h0, -⟩ | ⟨n, er, h0, h2, -⟩
      · exact Or.inl h0
      · exact Or.inr ⟨n, er, h0, h2⟩)
  obtain ⟨more, rfl⟩ := hpre
  obtain ⟨p1, p2⟩ := C173_spreading o.dt o.t0 true flag frames more
  refine ⟨by rw [hrows, hrows']; exact p1, _, _, hfile, hfile', savedFile_prefix h p2⟩

/-! ### Samples -/

theorem sample_loop_append (o : SampleSeries.Opts) (dt : ℚ) (labels : List Label) : ∀ (files more : List (Record × InfoDict)) (k : ℕ),
    (SampleSeries.loop o dt labels k files).lines <+: (SampleSeries.loop o dt labels k (files ++ more)).lines ∧
    (∀ e, (SampleSeries.loop o dt labels k files).result = .error e → SampleSeries.loop o dt labels k (files ++ more) = SampleSeries.loop o dt labels k files) ∧
    ((SampleSeries.loop o dt labels k files).result = .ok none → SampleSeries.loop o dt labels k (files ++ more) = SampleSeries.loop o dt labels k files) := by
  intro files
  induction files with
  | nil =>
    intro more k
    refine ⟨List.nil_prefix, fun e h => ?_, fun h => ?_⟩ <;> cases h
  | cons file files ih =>
    intro more k
    rw [List.cons_append]
    unfold SampleSeries.loop
    cases SampleSeries.frame o file with
    | error e => exact ⟨List.prefix_refl _, fun _ _ => rfl, fun _ => rfl⟩
    | ok f =>
      simp only
      cases SampleSeries.sampleLabels o f labels with
      | error e => exact ⟨List.prefix_refl _, fun _ _ => rfl, fun _ => rfl⟩
      | ok vs =>
        obtain ⟨⟨c, hc⟩, i2, i3⟩ := ih more (k + 1)
        simp only
        refine ⟨⟨c, by rw [List.cons_append, hc]⟩, ?_, ?_⟩
        · intro e h
          have : (SampleSeries.loop o dt labels (k + 1) files).result = .error e := by
            cases hr : (SampleSeries.loop o dt labels (k + 1) files).result with
            | error e' => rw [hr] at h; cases h; rfl
            | ok r => rw [hr] at h; cases h
          rw [i2 e this]
        · intro h
          have : (SampleSeries.loop o dt labels (k + 1) files).result = .ok none := by
            cases hr : (SampleSeries.loop o dt labels (k + 1) files).result with
            | error e' => rw [hr] at h; cases h
            | ok r =>
              cases r with
              | none => rfl
              | some r => rw [hr] at h; cases h
          rw [i3 this]

/-- **C173, samples.** The lines written for the files of a series are the first lines written when the series goes on; a run that fails or stops early does so with the same lines and result. -/
theorem C173_samples (o : SampleSeries.Opts) (dt : ℚ) (labels : List Label) (files more : List (Record × InfoDict)) :
    (SampleSeries.sampleAverage o dt labels files).1 <+: (SampleSeries.sampleAverage o dt labels (files ++ more)).1 ∧
    ((SampleSeries.sampleAverage o dt labels files).2 = .ok none → SampleSeries.sampleAverage o dt labels (files ++ more) = SampleSeries.sampleAverage o dt labels files) ∧
    (labels ≠ [] → ∀ e, (SampleSeries.sampleAverage o dt labels files).2 = .error e → SampleSeries.sampleAverage o dt labels (files ++ more) = SampleSeries.sampleAverage o dt labels files) := by
  obtain ⟨h1, h2, h3⟩ := sample_loop_append o dt labels files more 0
  refine ⟨h1, fun h => ?_, fun hl e h => ?_⟩
  · have : (SampleSeries.loop o dt labels 0 files).result = .ok none := by
      unfold SampleSeries.sampleAverage at h
      simp only at h
      cases hr : (SampleSeries.loop o dt labels 0 files).result with
      | error e => rw [hr] at h; cases h
      | ok r =>
        cases r with
        | none => rfl
        | some r =>
          rw [hr] at h
          simp only [Except.bind] at h
          split at h <;> cases h
    unfold SampleSeries.sampleAverage
    rw [h3 this]
  · have : (SampleSeries.loop o dt labels 0 files).result = .error e := by
      unfold SampleSeries.sampleAverage at h
      simp only at h
      cases hr : (SampleSeries.loop o dt labels 0 files).result with
      | error e' => rw [hr] at h; cases h; rfl
      | ok r =>
        cases r with
        | none => rw [hr] at h; cases h
        | some r =>
          rw [hr] at h
          simp only [Except.bind] at h
          rw [if_neg hl] at h
          cases h
    unfold SampleSeries.sampleAverage
    rw [h2 e this]

/-! ### Interfaces and contact lines -/

/-- **C173, interfaces.** The interfaces collected from the maps of a series, which are put together through the periodic boundary from one map to the next, are the first ones collected when the series
goes on. -/
theorem C173_interfaces (c : InterfaceFiles.Centre) (o : Interface.Opts) : ∀ (m : InterfaceFiles.Memory) (maps more : List Flow),
    (InterfaceFiles.collectInterfaces c o m maps).1 <+: (InterfaceFiles.collectInterfaces c o m (maps ++ more)).1 ∧
    ∀ e, (InterfaceFiles.collectInterfaces c o m maps).2 = .error e → InterfaceFiles.collectInterfaces c o m (maps ++ more) = InterfaceFiles.collectInterfaces c o m maps
  | _, [], _ => ⟨List.nil_prefix, fun e h => by cases h⟩
  | m, f :: maps, more => by
    rw [List.cons_append]
    unfold InterfaceFiles.collectInterfaces
    cases InterfaceFiles.interfaceCoordinates f "M" m c o with
    | error e => exact ⟨List.prefix_refl _, fun _ _ => rfl⟩
    | ok r =>
      obtain ⟨pts, m'⟩ := r
      obtain ⟨⟨d, hd⟩, h2⟩ := C173_interfaces c o m' maps more
      exact ⟨⟨d, by rw [List.cons_append, hd]⟩, fun e h => by simp only at h ⊢; rw [h2 e h]⟩

/-- **C173, sampled interfaces.** -/
theorem C173_interface_samples {α γ : Type} (sample : γ → Except Err α) (dt : ℚ) : ∀ (files more : List γ) (k : ℕ),
    (InterfaceFiles.sampleLoop sample dt k files).1 <+: (InterfaceFiles.sampleLoop sample dt k (files ++ more)).1
  | [], _, _ => List.nil_prefix
  | f :: files, more, k => by
    rw [List.cons_append]
    unfold InterfaceFiles.sampleLoop
    have ih := C173_interface_samples sample dt files more (k + 1)
    split
    · obtain ⟨d, hd⟩ := ih
      exact ⟨d, by rw [List.cons_append, hd]⟩
    · exact ih
    · exact List.prefix_refl _

theorem mapM_append_ok {α β : Type} (g : α → Except Err β) : ∀ (l m : List α) (r : List β), (l ++ m).mapM g = .ok r → ∃ a b, l.mapM g = .ok a ∧ r = a ++ b
  | [], _, r, _ => ⟨[], r, rfl, rfl⟩
  | x :: l, m, r, h => by
    rw [List.cons_append, List.mapM_cons] at h
    obtain ⟨v, hv, h⟩ := Simple.bind_eq_ok h
    obtain ⟨vs, hvs, h⟩ := Simple.bind_eq_ok h
    obtain ⟨a, b, ha, rfl⟩ := mapM_append_ok g l m vs hvs
    cases h
    refine ⟨v :: a, b, ?_, rfl⟩
    rw [List.mapM_cons, hv, ha]
    rfl

/-- **C173, contact angles.** If the angles of all files, old and new, are found, the times and angles of the old files are the first ones. -/
theorem C173_contact_angles (fit : Bool) (height : Option ℚ) (dt : ℚ) (files more : List (List InterfaceFiles.Point)) (r' : List ℚ × InterfaceFiles.Angles)
    (h : InterfaceFiles.contactAngles fit height dt (files ++ more) = .ok r') :
    ∃ r, InterfaceFiles.contactAngles fit height dt files = .ok r ∧ r.1 <+: r'.1 ∧ r.2.fit <+: r'.2.fit ∧ r.2.measured <+: r'.2.measured ∧ r.2.left <+: r'.2.left ∧ r.2.right <+: r'.2.right := by
  unfold InterfaceFiles.contactAngles at h ⊢
  obtain ⟨rows, hr, h⟩ := Simple.bind_eq_ok h
  obtain ⟨a, b, ha, rfl⟩ := mapM_append_ok _ files more rows hr
  cases h
  rw [ha]
  refine ⟨_, rfl, ?_, ?_, ?_, ?_, ?_⟩
  · refine range_prefix _ ?_
    simp only [List.filterMap_append, List.length_append]
    split_ifs <;> omega
  all_goals
    simp only [List.filterMap_append, List.map_append]
    exact List.prefix_append _ _

/-- **C173, groups of contact lines.** The groups over which contact lines are averaged are the first groups of the longer series. -/
theorem C173_contact_line_groups {α : Type} (average : ℤ) (rolling : Bool) : ∀ (acc files more : List α),
    ContactLine.groupLoop average rolling acc files <+: ContactLine.groupLoop average rolling acc (files ++ more)
  | _, [], _ => List.nil_prefix
  | acc, a :: files, more => by
    rw [List.cons_append]
    unfold ContactLine.groupLoop
    split
    · obtain ⟨d, hd⟩ := C173_contact_line_groups average rolling (if rolling then (acc ++ [a]).drop 1 else []) files more
      exact ⟨d, by rw [List.cons_append, hd]⟩
    · exact C173_contact_line_groups average rolling _ files more

/-! ### Cases -/

example : GoesOn ["00001".toList, "00002".toList] ["00001".toList, "00002".toList, "00003".toList] (some 2) none ∧
    yieldSingles ["00001".toList, "00002".toList] [] [] 1 (some 2) = ["00001".toList, "00002".toList] ∧
    yieldSingles ["00001".toList, "00002".toList, "00003".toList] [] [] 1 none = ["00001".toList, "00002".toList, "00003".toList] := by
  refine ⟨⟨by decide +kernel, by simp⟩, ?_, ?_⟩ <;> decide +kernel

/-- A droplet crosses the border of a box of length 10 in its third frame; a frame later its rows are the same. -/
example : (Spreading.collect 1 0 true false [⟨10, some (4, 5), []⟩, ⟨10, some (3, 7), []⟩, ⟨10, some (9, 8), []⟩]).rows <+:
    (Spreading.collect 1 0 true false [⟨10, some (4, 5), []⟩, ⟨10, some (3, 7), []⟩, ⟨10, some (9, 8), []⟩, ⟨10, some (8, 9), []⟩]).rows :=
  (C173_spreading 1 0 true false [⟨10, some (4, 5), []⟩, ⟨10, some (3, 7), []⟩, ⟨10, some (9, 8), []⟩] [⟨10, some (8, 9), []⟩]).1

/-- The maps of the cases of C121, of which the last one cannot be read: the run over the first three succeeds, the run over all of them fails, and its output begins with what the first run saved. -/
example : (SpreadingFiles.collectFiles (SpreadingFiles.readFlow Bytes.ieee32) SpreadingFiles.byteStore SpreadingText.exHeader (some "out".toList) SpreadingFiles.exOpts false SpreadingFiles.exFiles SpreadingFiles.exDir "a".toList [] 1 (some 3)).rows <+:
    (SpreadingFiles.collectFiles (SpreadingFiles.readFlow Bytes.ieee32) SpreadingFiles.byteStore SpreadingText.exHeader (some "out".toList) SpreadingFiles.exOpts false SpreadingFiles.exFiles SpreadingFiles.exDir "a".toList [] 1 none).rows := by
  refine (C173_spreading_files _ _ SpreadingFiles.byteStore_lawful _ _ _ _ SpreadingFiles.exFiles SpreadingFiles.exFiles _ _ _ ⟨fun _ h => h, by simp⟩ ?_ (fun _ _ => rfl) ?_).1
  · have h : yieldSingles SpreadingFiles.exDir "a".toList [] 1 none = ["a00001".toList, "a00002".toList, "a00003".toList, "a00004".toList] := by decide +kernel
    rw [h]
    decide +kernel
  · have h : (SpreadingFiles.collectFiles (SpreadingFiles.readFlow Bytes.ieee32) SpreadingFiles.byteStore SpreadingText.exHeader (some "out".toList) SpreadingFiles.exOpts false SpreadingFiles.exFiles SpreadingFiles.exDir "a".toList [] 1 (some 3)).outcome.toOption.isSome = true := by decide +kernel
    revert h
    cases (SpreadingFiles.collectFiles (SpreadingFiles.readFlow Bytes.ieee32) SpreadingFiles.byteStore SpreadingText.exHeader (some "out".toList) SpreadingFiles.exOpts false SpreadingFiles.exFiles SpreadingFiles.exDir "a".toList [] 1 (some 3)).outcome with
    | error e => intro h; cases h
    | ok u => intro _; rfl

example : ContactLine.groupLoop 2 true [] [1, 2, 3] = [[1, 2], [2, 3]] ∧ ContactLine.groupLoop 2 true [] [1, 2, 3, 4] = [[1, 2], [2, 3], [3, 4]] := by decide +kernel

end Strata.Longer
