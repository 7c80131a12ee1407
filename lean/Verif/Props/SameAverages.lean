import Verif.Spec.SameMaps
import Verif.Props.AverageFiles
/-!
# C176: averages of series that hold the same maps
-/
namespace Strata.SameMaps
open Strata Strata.Flow Strata.Files Strata.Bytes Strata.Driver Strata.Average Strata.Spec

/-- **C176, averages.** If the groups of two series of files are read as the same maps and their averages can be written, then the averages of both series are the same files, byte for byte, in the
same order, whatever the names of the files and of the outputs, the extensions, the first numbers and the directories are (with outputs that are not read later in the same run). All options are allowed, with rolling
groups or not. -/
theorem C176_averages (F : F32) (edges : Flow → Except Err (Option ℚ × Option ℚ)) (o : Opts) (fs fs' : FS Bytes) (dir dir' : Dir) (base base' output output' ext ext' : Text) (outext outext' : Option Text)
    (g : ℕ) (hg : 1 ≤ g) (rolling : Bool) (b b' : ℤ) (e e' : Option ℤ) (hslash : '/' ∉ outext.getD ext) (hslash' : '/' ∉ outext'.getD ext')
    (k : ℕ) (hk : ∀ i, i < k → Complete dir base ext b e g rolling i ∧ Complete dir' base' ext' b' e' g rolling i)
    (hk' : ¬ Complete dir base ext b e g rolling k ∧ ¬ Complete dir' base' ext' b' e' g rolling k)
    (maps : ℕ → List Map) (hread : ∀ i, i < k → ReadsAs (readDataFile F) fs (groupFiles base ext b g rolling i) (maps i) ∧ ReadsAs (readDataFile F) fs' (groupFiles base' ext' b' g rolling i) (maps i))
    (hwrite : ∀ i, i < k → ∃ avg info content, averageGroup edges o (maps i) = .ok (avg, info) ∧ gmxWrite F avg info = (some content, .ok ())) :
    ∃ start start' : ℤ, (rolling = true → start = b ∧ start' = b') ∧ (rolling = false → (b ≤ start * g ∧ (start - 1) * g < b) ∧ b' ≤ start' * g ∧ (start' - 1) * g < b') ∧
      ((∀ i i', i < i' → i' < k → splitPath (fileName output (outext.getD ext) (start + i)) ∉ (groupFiles base ext b g rolling i').map splitPath ∧
          splitPath (fileName output' (outext'.getD ext') (start' + i)) ∉ (groupFiles base' ext' b' g rolling i').map splitPath) →
        (o.quiet = false → (average (readDataFile F) (gmxWrite F) edges o fs dir base output ext outext g rolling b e).2 = .ok () ∧
          (average (readDataFile F) (gmxWrite F) edges o fs' dir' base' output' ext' outext' g rolling b' e').2 = .ok ()) ∧
        ∀ i : ℕ, i < k → ∃ c, (average (readDataFile F) (gmxWrite F) edges o fs dir base output ext outext g rolling b e).1.get? (splitPath (fileName output (outext.getD ext) (start + i))) = some c ∧
          (average (readDataFile F) (gmxWrite F) edges o fs' dir' base' output' ext' outext' g rolling b' e').1.get? (splitPath (fileName output' (outext'.getD ext') (start' + i))) = some c) := by
  have key : ∀ i, ∃ (avg : Record) (info : DInfo) (content : Bytes), i < k → averageGroup edges o (maps i) = .ok (avg, info) ∧ gmxWrite F avg info = (some content, .ok ()) := by
    intro i
    by_cases hi : i < k
    · obtain ⟨avg, info, content, h⟩ := hwrite i hi
      exact ⟨avg, info, content, fun _ => h⟩
    · exact ⟨[], ⟨(0, 0), (none, none), none, 0⟩, [], fun h => absurd h hi⟩
  choose avg info content hkey using key
  obtain ⟨start, s1, s2, s3⟩ := C56_series_partial (readDataFile F) (gmxWrite F) edges o fs dir base output ext outext g hg rolling b e hslash k (fun i hi => (hk i hi).1) hk'.1 maps avg info content
    (fun i hi => (hread i hi).1) (fun i hi => (hkey i hi).1) (fun i hi => (hkey i hi).2)
  obtain ⟨start', s1', s2', s3'⟩ := C56_series_partial (readDataFile F) (gmxWrite F) edges o fs' dir' base' output' ext' outext' g hg rolling b' e' hslash' k (fun i hi => (hk i hi).2) hk'.2 maps avg info
    content (fun i hi => (hread i hi).2) (fun i hi => (hkey i hi).1) (fun i hi => (hkey i hi).2)
  refine ⟨start, start', fun h => ⟨s1 h, s1' h⟩, fun h => ⟨s2 h, s2' h⟩, fun hc => ?_⟩
  obtain ⟨r1, r2, -⟩ := s3 fun i i' h1 h2 => (hc i i' h1 h2).1
  obtain ⟨r1', r2', -⟩ := s3' fun i i' h1 h2 => (hc i i' h1 h2).2
  exact ⟨fun h => ⟨r1 h, r1' h⟩, fun i hi => ⟨content i, r2 i hi, r2' i hi⟩⟩

/-! ### With groups that cannot be averaged -/

theorem readGroup_same {F : F32} {fs fs' : FS Bytes} {ps ps' : List Path} (h : List.Forall₂ (fun p p' => ∃ c c', fs.get? p = some c ∧ fs'.get? p' = some c' ∧ readDataFile F c = readDataFile F c') ps ps') :
    readGroup (readDataFile F) fs ps = readGroup (readDataFile F) fs' ps' := by
  induction h with
  | nil => rfl
  | cons hd _ ih =>
    obtain ⟨c, c', h1, h2, h3⟩ := hd
    unfold readGroup at ih ⊢
    rw [List.mapM_cons, List.mapM_cons, h1, h2, ih]
    simp only [Option.elim_some, h3]

/-- The loops over two lists of groups that are read as the same maps. -/
theorem loops_same (F : F32) (edges : Flow → Except Err (Option ℚ × Option ℚ)) (o : Opts) {jobs jobs' : List (List Path × Path)} (P : FS Bytes → FS Bytes → (List Path × Path) → (List Path × Path) → Prop)
    (hP : P = fun fs fs' j j' => List.Forall₂ (fun p p' => ∃ c c', fs.get? p = some c ∧ fs'.get? p' = some c' ∧ readDataFile F c = readDataFile F c') j.1 j'.1) :
    ∀ (fs fs' : FS Bytes), List.Forall₂ (P fs fs') jobs jobs' → (jobs.map Prod.snd).Nodup → (jobs'.map Prod.snd).Nodup → jobs.Pairwise (fun a b => a.2 ∉ b.1) → jobs'.Pairwise (fun a b => a.2 ∉ b.1) →
      (averageLoop (readDataFile F) (gmxWrite F) edges o fs jobs).2 = (averageLoop (readDataFile F) (gmxWrite F) edges o fs' jobs').2 ∧
      ∃ n, n ≤ jobs.length ∧
        (∀ i j j', i < n → jobs[i]? = some j → jobs'[i]? = some j' → ∃ c, (averageLoop (readDataFile F) (gmxWrite F) edges o fs jobs).1.get? j.2 = some c ∧
          (averageLoop (readDataFile F) (gmxWrite F) edges o fs' jobs').1.get? j'.2 = some c) ∧
        ∀ j, jobs[n]? = some j → ∀ d i c, (readGroup (readDataFile F) fs j.1 >>= averageGroup edges o) = .ok (d, i) → gmxWrite F d i ≠ (some c, .ok ()) := by
  induction jobs generalizing jobs' with
  | nil =>
    intro fs fs' h _ _ _ _
    cases h
    exact ⟨by rw [averageLoop, averageLoop], 0, by simp, by simp, by simp⟩
  | cons job jobs ih =>
    intro fs fs' h hn hn' hc hc'
    cases h with
    | @cons _ job' _ jobs' hd htl =>
      obtain ⟨ps, out⟩ := job
      obtain ⟨ps', out'⟩ := job'
      have hd0 := hd
      rw [hP] at hd0
      have hr := readGroup_same (F := F) hd0
      simp only [List.map_cons, List.nodup_cons] at hn hn'
      rw [List.pairwise_cons] at hc hc'
      cases hg : (readGroup (readDataFile F) fs ps >>= averageGroup edges o) with
      | error e =>
        have hg' := hg
        rw [hr] at hg'
        refine ⟨by rw [averageLoop, averageLoop]; simp only [hg, hg'], 0, by simp, by simp, ?_⟩
        intro j hj d i c hd
        simp only [List.getElem?_cons_zero, Option.some.injEq] at hj
        subst hj
        rw [hg] at hd
        cases hd
      | ok di =>
        obtain ⟨d, i⟩ := di
        have hg' := hg
        rw [hr] at hg'
        obtain ⟨fs1, hp, -, -⟩ := preparePath_spec fs out
        obtain ⟨fs1', hp', -, -⟩ := preparePath_spec fs' out'
        rcases hw : gmxWrite F d i with ⟨c, res⟩
        cases res with
        | error e =>
          refine ⟨by rw [averageLoop, averageLoop]; simp only [hg, hg', hp, hp', hw], 0, by simp, by simp, ?_⟩
          intro j hj d' i' c' hd
          simp only [List.getElem?_cons_zero, Option.some.injEq] at hj
          subst hj
          rw [hg] at hd
          cases hd
          rw [hw]
          simp
        | ok u =>
          cases c with
          | none =>
            exfalso
            unfold gmxWrite at hw
            split at hw
            · simp at hw
            · split at hw <;> simp at hw
          | some c =>
            obtain ⟨g1, -, e1, e2, e3⟩ := averageLoop_cons (out := out) (rest := jobs) hg hw
            obtain ⟨g1', -, e1', e2', e3'⟩ := averageLoop_cons (out := out') (rest := jobs') hg' hw
            have hmem : ∀ j ∈ jobs, ∀ p ∈ j.1, fs.get? p ≠ none := by
              intro j hj p hpp hnone
              obtain ⟨i, hi, rfl⟩ := List.mem_iff_getElem.mp hj
              have hi' : i < jobs'.length := by rw [← htl.length_eq]; exact hi
              have h1 := List.Forall₂.get htl hi hi'
              rw [hP] at h1
              obtain ⟨q, hq, rfl⟩ := List.mem_iff_getElem.mp hpp
              have hq' : q < (jobs'.get ⟨i, hi'⟩).1.length := by rw [← h1.length_eq]; exact hq
              obtain ⟨c, c', h2, -⟩ := List.Forall₂.get h1 hq hq'
              simp only [List.get_eq_getElem] at h2
              rw [h2] at hnone
              cases hnone
            have htl' : List.Forall₂ (P (g1.put out c) (g1'.put out' c)) jobs jobs' := by
              rw [List.forall₂_iff_get] at htl ⊢
              refine ⟨htl.1, fun i h1 h2 => ?_⟩
              have h3 := htl.2 i h1 h2
              have m1 := hc.1 _ (List.get_mem jobs ⟨i, h1⟩)
              have m2 := hc'.1 _ (List.get_mem jobs' ⟨i, h2⟩)
              rw [hP] at h3 ⊢
              simp only at h3 ⊢
              rw [List.forall₂_iff_get] at h3 ⊢
              refine ⟨h3.1, fun q h4 h5 => ?_⟩
              obtain ⟨c1, c1', k1, k2, k3⟩ := h3.2 q h4 h5
              refine ⟨c1, c1', ?_, ?_, k3⟩
              · rw [e3 _ (fun he => m1 (he ▸ List.get_mem _ _)) (by rw [k1]; simp), k1]
              · rw [e3' _ (fun he => m2 (he ▸ List.get_mem _ _)) (by rw [k2]; simp), k2]
            obtain ⟨r1, n, r2, r3, r4⟩ := ih (g1.put out c) (g1'.put out' c) htl' hn.2 hn'.2 hc.2 hc'.2
            rw [e1, e1']
            refine ⟨r1, n + 1, by simpa using r2, ?_, ?_⟩
            · intro i j j' hi hj hj'
              cases i with
              | zero =>
                simp only [List.getElem?_cons_zero, Option.some.injEq] at hj hj'
                subst hj
                subst hj'
                refine ⟨c, ?_, ?_⟩
                · rw [averageLoop_keeps _ _ edges o jobs _ _ (by rw [e2]; simp) ?_, e2]
                  intro io hio he
                  exact hn.1 (List.mem_map.mpr ⟨io, hio, he⟩)
                · rw [averageLoop_keeps _ _ edges o jobs' _ _ (by rw [e2']; simp) ?_, e2']
                  intro io hio he
                  exact hn'.1 (List.mem_map.mpr ⟨io, hio, he⟩)
              | succ i =>
                rw [List.getElem?_cons_succ] at hj hj'
                exact r3 i j j' (by omega) hj hj'
            · intro j hj d' i' c' hd
              rw [List.getElem?_cons_succ] at hj
              refine r4 j hj d' i' c' ?_
              have hjm : j ∈ jobs := List.mem_of_getElem? hj
              rw [readGroup_congr (readDataFile F) (fs := fs) fun p hpp => e3 p (fun he => hc.1 j hjm (he ▸ hpp)) (hmem j hjm p hpp)]
              exact hd

/-- **C176, averages, when some cannot be made.** If the groups of two series of files are read as the same maps (or refused alike), then both runs end in the same way; as many averages are written
by both, which are the same byte for byte, up to the first group that cannot be averaged or written. -/
theorem C176_averages_end (F : F32) (edges : Flow → Except Err (Option ℚ × Option ℚ)) (o : Opts) (fs fs' : FS Bytes) (dir dir' : Dir) (base base' output output' ext ext' : Text) (outext outext' : Option Text)
    (g : ℕ) (hg : 1 ≤ g) (rolling : Bool) (b b' : ℤ) (e e' : Option ℤ) (hslash : '/' ∉ outext.getD ext) (hslash' : '/' ∉ outext'.getD ext')
    (k : ℕ) (hk : ∀ i, i < k → Complete dir base ext b e g rolling i ∧ Complete dir' base' ext' b' e' g rolling i)
    (hk' : ¬ Complete dir base ext b e g rolling k ∧ ¬ Complete dir' base' ext' b' e' g rolling k)
    (hs : ∀ i, i < k → SameMaps F fs (groupFiles base ext b g rolling i) fs' (groupFiles base' ext' b' g rolling i)) :
    ∃ start start' : ℤ, (rolling = true → start = b ∧ start' = b') ∧ (rolling = false → (b ≤ start * g ∧ (start - 1) * g < b) ∧ b' ≤ start' * g ∧ (start' - 1) * g < b') ∧
      ((∀ i i', i < i' → i' < k → splitPath (fileName output (outext.getD ext) (start + i)) ∉ (groupFiles base ext b g rolling i').map splitPath ∧
          splitPath (fileName output' (outext'.getD ext') (start' + i)) ∉ (groupFiles base' ext' b' g rolling i').map splitPath) →
        (average (readDataFile F) (gmxWrite F) edges o fs dir base output ext outext g rolling b e).2 = (average (readDataFile F) (gmxWrite F) edges o fs' dir' base' output' ext' outext' g rolling b' e').2 ∧
        ∃ n : ℕ, n ≤ k ∧
          (∀ i : ℕ, i < n → ∃ c, (average (readDataFile F) (gmxWrite F) edges o fs dir base output ext outext g rolling b e).1.get? (splitPath (fileName output (outext.getD ext) (start + i))) = some c ∧
            (average (readDataFile F) (gmxWrite F) edges o fs' dir' base' output' ext' outext' g rolling b' e').1.get? (splitPath (fileName output' (outext'.getD ext') (start' + i))) = some c) ∧
          (n < k → ∀ maps, ReadsAs (readDataFile F) fs (groupFiles base ext b g rolling n) maps → ∀ avg info content, averageGroup edges o maps = .ok (avg, info) →
            gmxWrite F avg info ≠ (some content, .ok ()))) := by
  obtain ⟨start, h1, h2, hf⟩ := groups_found dir base output ext outext g hg rolling b e k (fun i hi => (hk i hi).1) hk'.1
  obtain ⟨start', h1', h2', hf'⟩ := groups_found dir' base' output' ext' outext' g hg rolling b' e' k (fun i hi => (hk i hi).2) hk'.2
  refine ⟨start, start', fun h => ⟨h1 h, h1' h⟩, fun h => ⟨h2 h, h2' h⟩, fun hcross => ?_⟩
  unfold average
  rw [hf, hf', List.map_map, List.map_map]
  obtain ⟨r1, n, r2, r3, r4⟩ := loops_same F edges o (jobs := (List.range k).map ((fun io => (io.1.map splitPath, splitPath io.2)) ∘ fun i : ℕ => (groupFiles base ext b g rolling i, fileName output (outext.getD ext) (start + i))))
    (jobs' := (List.range k).map ((fun io => (io.1.map splitPath, splitPath io.2)) ∘ fun i : ℕ => (groupFiles base' ext' b' g rolling i, fileName output' (outext'.getD ext') (start' + i)))) _ rfl fs fs' (by
      rw [List.forall₂_map_left_iff, List.forall₂_map_right_iff, List.forall₂_same]
      intro i hi
      simp only [Function.comp]
      rw [List.forall₂_map_left_iff, List.forall₂_map_right_iff]
      exact hs i (List.mem_range.mp hi)) (by
      rw [List.map_map]
      refine List.nodup_range.map fun x y hxy => ?_
      have := splitPath_fileName_injective _ _ hslash hxy
      omega) (by
      rw [List.map_map]
      refine List.nodup_range.map fun x y hxy => ?_
      have := splitPath_fileName_injective _ _ hslash' hxy
      omega) (by
      rw [List.pairwise_map]
      refine List.Pairwise.imp_of_mem ?_ List.pairwise_lt_range
      intro x y _ hy hxy
      exact (hcross x y hxy (List.mem_range.mp hy)).1) (by
      rw [List.pairwise_map]
      refine List.Pairwise.imp_of_mem ?_ List.pairwise_lt_range
      intro x y _ hy hxy
      exact (hcross x y hxy (List.mem_range.mp hy)).2)
  have hlen : n ≤ k := by simpa using r2
  refine ⟨r1, n, hlen, ?_, ?_⟩
  · intro i hi
    exact r3 i _ _ hi (by rw [List.getElem?_map, List.getElem?_range (by omega)]; rfl) (by rw [List.getElem?_map, List.getElem?_range (by omega)]; rfl)
  · intro hn maps hm avg info content ha
    refine r4 _ (by rw [List.getElem?_map, List.getElem?_range hn]; rfl) avg info content ?_
    simp only [Function.comp]
    rw [readGroup_of hm, Gmx.ok_bind, ha]

/-! ### A case -/

/-- The gmx file of the cases of C114, twice, under two names and numbers; the average of a group of both is written. -/
example : ReadsAs (readDataFile ieee32) [((".".toList, "a00001".toList), exGmx), ((".".toList, "a00002".toList), exGmx)] (groupFiles "a".toList [] 1 2 false 0) [exMapG, exMapG] ∧
    ReadsAs (readDataFile ieee32) [(("x".toList, "m00005.map".toList), exGmx), (("x".toList, "m00006.map".toList), exGmx)] (groupFiles "x/m".toList ".map".toList 5 2 false 0) [exMapG, exMapG] := by
  refine ⟨?_, ?_⟩
  · refine List.Forall₂.cons ⟨exGmx, ?_, exGmx_read⟩ (List.Forall₂.cons ⟨exGmx, ?_, exGmx_read⟩ List.Forall₂.nil) <;> rfl
  · refine List.Forall₂.cons ⟨exGmx, ?_, exGmx_read⟩ (List.Forall₂.cons ⟨exGmx, ?_, exGmx_read⟩ List.Forall₂.nil) <;> rfl

example : Complete ["x/m00005.map".toList, "x/m00006.map".toList] "x/m".toList ".map".toList 5 none 2 false 0 ∧ ¬ Complete ["x/m00005.map".toList, "x/m00006.map".toList] "x/m".toList ".map".toList 5 none 2 false 1 := by
  refine ⟨?_, ?_⟩
  · intro j hj
    interval_cases j
    · exact ⟨by decide +kernel, by simp⟩
    · exact ⟨by decide +kernel, by simp⟩
  · intro h
    exact absurd (h 1 (by omega)).1 (by decide +kernel)

/-- Its average is written. -/
example (edges : Flow → Except Err (Option ℚ × Option ℚ)) (o : Opts) (ho : Plain o) : ∃ avg info content, averageGroup edges o [exMapG, exMapG] = .ok (avg, info) ∧ gmxWrite ieee32 avg info = (some content, .ok ()) := by
  obtain ⟨avg, info, bytes, m', h1, h2, -⟩ := averaged_group ieee32 edges o ho [exMapG, exMapG] 2 15 (1 / 2) (1 / 2) (1 / 4) (1 / 4) (0, 0) 0
    ⟨by simp, by
      intro m hm
      simp only [List.mem_cons, List.not_mem_nil, or_false, or_self] at hm
      subst hm
      exact ⟨exMapG_grid, rfl⟩⟩ (.inr (by decide +kernel)) exMap_decimals.2
  exact ⟨avg, info, bytes, h1, h2⟩

/-- Two files that are refused alike. -/
example : SameMaps ieee32 [((".".toList, "a00001".toList), [65]), ((".".toList, "a00002".toList), exGmx)] (groupFiles "a".toList [] 1 2 false 0)
    [(("x".toList, "m00005.map".toList), [66]), (("x".toList, "m00006.map".toList), exGmx)] (groupFiles "x/m".toList ".map".toList 5 2 false 0) ∧ (readDataFile ieee32 [65]).isOk = false := by
  refine ⟨List.Forall₂.cons ⟨[65], [66], ?_, ?_, ?_⟩ (List.Forall₂.cons ⟨exGmx, exGmx, ?_, ?_, Eq.refl _⟩ List.Forall₂.nil), ?_⟩
  · rfl
  · rfl
  · decide +kernel
  · rfl
  · rfl
  · decide +kernel

end Strata.SameMaps
