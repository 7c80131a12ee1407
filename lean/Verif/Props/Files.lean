import Verif.Proofs.FilesFS
/-!
# Properties C01–C07, C59: file names, discovery, backups, conversion of a series
-/
namespace Strata.Files
open Strata.Spec

/-! ## C01 -/

/-- **C01.** Frame `n` gets `base`, a numeral that denotes `n` (at least five characters wide,
and without superfluous zeros when wider), and `ext`. -/
theorem C01_name_is_base_number_ext (base ext : Text) (n : ℤ) :
    ∃ num : Text, fileName base ext n = base ++ num ++ ext ∧ readInteger num = some n ∧
      5 ≤ num.length ∧ (5 < num.length → num.head? ≠ some '0') := by
  refine ⟨fmt05 n, rfl, readInteger_fmt05 n, ?_, ?_⟩
  · unfold fmt05; split <;> simp [length_padded]
  · unfold fmt05
    split
    · intro hl
      rw [length_padded] at hl
      have h0 : 5 - (decimal n.toNat).length = 0 := by omega
      have hne : n.toNat ≠ 0 := by
        intro h; rw [h] at hl; simp [decimal] at hl
      simpa [padded, h0] using head_decimal_ne_zero _ hne
    · simp

/-- **C01.** Two different frames never share a name. -/
theorem C01_names_injective (base ext : Text) (m n : ℤ)
    (h : fileName base ext m = fileName base ext n) : m = n :=
  fileName_injective base ext h

/-- **C01.** A bounded generator, drained completely, yields one name per frame
`begin … end` in ascending order. -/
theorem C01_gen_bounded (base ext : Text) (b e : ℤ) (fuel : ℕ) (hf : (e - b + 1).toNat < fuel) :
    genFilenames base ext (some e) b fuel =
      (List.range (e - b + 1).toNat).map (fun i : ℕ => fileName base ext (b + i)) := by
  obtain ⟨k, hk, heq, hall, hstop⟩ := genFilenames_spec base ext (some e) fuel b
  have hk' : k = (e - b + 1).toNat := by
    have h1 : ∀ i < k, b + (i : ℤ) ≤ e := fun i hi => by simpa [leEnd] using hall i hi
    by_cases hz : k = 0
    · have := hstop (by omega)
      simp [leEnd, hz] at this
      omega
    · have h2 := h1 (k - 1) (by omega)
      have h3 : k < fuel := by
        rcases Nat.lt_or_ge k fuel with h | h
        · exact h
        · omega
      have := hstop h3
      simp [leEnd] at this
      omega
  rw [heq, hk']

/-- **C01.** An unbounded generator yields the names of `begin, begin + 1, …` for ever. -/
theorem C01_gen_unbounded (base ext : Text) (b : ℤ) (fuel : ℕ) :
    genFilenames base ext none b fuel =
      (List.range fuel).map (fun i : ℕ => fileName base ext (b + i)) := by
  obtain ⟨k, hk, heq, hall, hstop⟩ := genFilenames_spec base ext none fuel b
  have : k = fuel := by
    by_contra hne
    have := hstop (by omega)
    simp [leEnd] at this
  rw [heq, this]

example : genFilenames "m_".toList ".dat".toList (some 100000) 99998 9 =
    ["m_99998.dat".toList, "m_99999.dat".toList, "m_100000.dat".toList] := by decide +kernel
example : fileName "".toList "".toList (-7) = "-0007".toList := by decide +kernel

/-! ## C02 -/

/-- **C02.** The discovered files are exactly the frames `begin, …, begin + k - 1`, all of
which exist and are within the bound, and `k` is maximal: frame `begin + k` is missing or beyond `end`. -/
theorem C02_discovery_maximal_prefix (dir : Dir) (base ext : Text) (b : ℤ) (e : Option ℤ) :
    ∃ k : ℕ, yieldSingles dir base ext b e =
        (List.range k).map (fun i : ℕ => fileName base ext (b + i)) ∧
      (∀ i : ℕ, i < k → fileName base ext (b + i) ∈ dir ∧ ∀ m, e = some m → b + i ≤ m) ∧
      (fileName base ext (b + k) ∈ dir → ∃ m, e = some m ∧ m < b + k) := by
  obtain ⟨k, _, heq, hall, hstop⟩ := yieldSingles_spec dir base ext b e
  refine ⟨k, heq, fun i hi => ⟨(hall i hi).2, ?_⟩, ?_⟩
  · rintro m rfl; simpa [leEnd] using (hall i hi).1
  · intro hmem
    have : leEnd (b + k) e ≠ true := fun h => hstop ⟨h, hmem⟩
    rcases e with _ | m
    · simp [leEnd] at this
    · exact ⟨m, rfl, by simpa [leEnd] using this⟩

/-- **C02.** Membership form: frame `n` is yielded iff it and every frame from `begin` up to
it exist and are within the bound; in particular nothing after a gap is yielded. -/
theorem C02_discovery_mem_iff (dir : Dir) (base ext : Text) (b : ℤ) (e : Option ℤ) (n : ℤ) :
    fileName base ext n ∈ yieldSingles dir base ext b e ↔
      b ≤ n ∧ (∀ m, e = some m → n ≤ m) ∧ ∀ j, b ≤ j → j ≤ n → fileName base ext j ∈ dir := by
  obtain ⟨k, heq, hall, hstop⟩ := C02_discovery_maximal_prefix dir base ext b e
  rw [heq, List.mem_map]
  constructor
  · rintro ⟨i, hi, hin⟩
    have hn := fileName_injective base ext hin
    have hi := List.mem_range.mp hi
    refine ⟨by omega, fun m hm => by have := (hall i hi).2 m hm; omega, fun j h1 h2 => ?_⟩
    have := (hall (j - b).toNat (by omega)).1
    rwa [show b + ((j - b).toNat : ℤ) = j by omega] at this
  · rintro ⟨h1, h2, h3⟩
    refine ⟨(n - b).toNat, List.mem_range.mpr ?_, by congr 1; omega⟩
    by_contra hge
    obtain ⟨m, hm, hlt⟩ := hstop (h3 (b + k) (by omega) (by omega))
    have := h2 m hm
    omega

/-- **C02.** The search ends on its own: allowing more iterations changes nothing, so the
iteration bound of the model is not observable, also with `end = inf`. -/
theorem C02_discovery_terminates (dir : Dir) (base ext : Text) (b : ℤ) (e : Option ℤ) (extra : ℕ) :
    yieldSinglesFuel dir base ext e b (dir.length + 1 + extra) = yieldSingles dir base ext b e :=
  yieldSinglesFuel_mono dir base ext e b extra

/-- **C02.** The warning is issued exactly when nothing is found although the range is not empty. -/
theorem C02_warning_iff (dir : Dir) (base ext : Text) (b : ℤ) (e : Option ℤ) :
    singlesWarn dir base ext b e = true ↔
      (∀ m, e = some m → b ≤ m) ∧ yieldSingles dir base ext b e = [] := by
  obtain ⟨k, heq, hall, hstop⟩ := C02_discovery_maximal_prefix dir base ext b e
  have hlen : yieldSingles dir base ext b e = [] ↔ k = 0 := by rw [heq]; simp
  rw [hlen]
  have hle : leEnd b e = true ↔ ∀ m, e = some m → b ≤ m := by
    rcases e with _ | m <;> simp [leEnd]
  simp only [singlesWarn, Bool.and_eq_true, Bool.not_eq_true', decide_eq_false_iff_not, hle]
  constructor
  · rintro ⟨h1, h2⟩
    refine ⟨h1, ?_⟩
    by_contra hk
    exact h2 (by simpa using (hall 0 (by omega)).1)
  · rintro ⟨h1, rfl⟩
    refine ⟨h1, fun hmem => ?_⟩
    obtain ⟨m, hm, hlt⟩ := hstop (by simpa using hmem)
    have := h1 m hm
    simp at hlt; omega

example : yieldSingles ["a00002.d".toList, "a00001.d".toList, "a00004.d".toList, "a00003.d".toList, "a00006.d".toList]
    "a".toList ".d".toList 2 none = ["a00002.d".toList, "a00003.d".toList, "a00004.d".toList] := by
  decide +kernel
example : singlesWarn ["a00002.d".toList] "a".toList ".d".toList 1 (some 3) = true := by decide +kernel

/-! ## C03 -/

/-- **C03.** Grouped discovery.  With `s` the distance between bundle starts (`g`, or 1 when
rolling): there are `k` bundles, bundle `i` being the `g` consecutive frames from
`begin + i·s`; all their files exist and are within `end`; and `k` is maximal, i.e. the next
bundle is incomplete. -/
theorem C03_groups (dir : Dir) (base ext : Text) (g : ℕ) (hg : 1 ≤ g) (rolling : Bool) (b : ℤ)
    (e : Option ℤ) :
    ∃ k : ℕ, yieldGroups dir base ext g rolling b e =
        (List.range k).map (fun i : ℕ => (List.range g).map (fun j : ℕ =>
          fileName base ext (b + i * (if rolling then 1 else g : ℕ) + j))) ∧
      (∀ i : ℕ, i < k → ∀ j : ℕ, j < g →
        fileName base ext (b + i * (if rolling then 1 else g : ℕ) + j) ∈ dir ∧
        ∀ m, e = some m → b + i * (if rolling then 1 else g : ℕ) + j ≤ m) ∧
      (∃ j : ℕ, j < g ∧ (fileName base ext (b + k * (if rolling then 1 else g : ℕ) + j) ∉ dir ∨
        ∃ m, e = some m ∧ m < b + k * (if rolling then 1 else g : ℕ) + j)) := by
  obtain ⟨k, _, heq, hall, hstop⟩ := yieldGroups_spec dir base ext g hg rolling b e
  refine ⟨k, heq, fun i hi j hj => ⟨(hall i hi).2 j hj, ?_⟩, ?_⟩
  · rintro m rfl
    have := (hall i hi).1
    simp only [leEnd, decide_eq_true_eq] at this
    omega
  · by_contra hcon
    apply hstop
    refine ⟨?_, fun j hj => ?_⟩
    · rcases e with _ | m
      · rfl
      · simp only [leEnd, decide_eq_true_eq]
        by_contra hlt
        exact hcon ⟨g - 1, by omega, Or.inr ⟨m, rfl, by omega⟩⟩
    · by_contra hnot
      exact hcon ⟨j, hj, Or.inl hnot⟩

/-- **C03** (boundary of the precondition `g ≥ 1`).  With `group = 0` the loop never stops by itself: whatever the
number of iterations allowed, all of them are used (in Python: an endless stream of empty bundles). -/
theorem C03_group_zero_diverges (dir : Dir) (base ext : Text) (rolling : Bool) (b : ℤ) (fuel : ℕ) :
    (yieldGroupsFuel dir base ext 0 rolling none b fuel).length = fuel := by
  induction fuel generalizing b with
  | zero => rfl
  | succ fuel ih =>
    have h0 : (yieldSingles dir base ext b (some (b + (0 : ℕ) - 1))).length = 0 :=
      (yieldSingles_window dir base ext 0 b).1.mpr (by simp)
    rw [yieldGroupsFuel]
    simp [leEnd] at h0 ⊢
    simp [h0]
    exact ih _

example : yieldGroups ["1".toList, "00001".toList, "00002".toList, "00003".toList, "00004".toList, "00005".toList]
    [] [] 2 false 1 none = [["00001".toList, "00002".toList], ["00003".toList, "00004".toList]] := by
  decide +kernel
example : (yieldGroups ["00001".toList, "00002".toList, "00003".toList, "00004".toList]
    [] [] 3 true 1 (some 4)).length = 2 := by decide +kernel

/-! ## C04 -/

/-- **C04.** The pairs are exactly (input of frame `n`, output of frame `n`) for the
discovered frames `begin … begin+k-1` (the frames of C02). -/
theorem C04_pairs (dir : Dir) (base output ext : Text) (outext : Option Text) (b : ℤ) (e : Option ℤ) :
    ∃ k : ℕ, yieldSingles dir base ext b e =
        (List.range k).map (fun i : ℕ => fileName base ext (b + i)) ∧
      findSinglesToSingles dir base output ext outext b e =
        (List.range k).map (fun i : ℕ =>
          (fileName base ext (b + i), fileName output (outext.getD ext) (b + i))) := by
  obtain ⟨k, heq, hall, _⟩ := C02_discovery_maximal_prefix dir base ext b e
  refine ⟨k, heq, ?_⟩
  have hlen : (yieldSingles dir base ext b e).length = k := by rw [heq]; simp
  obtain ⟨k', hk', heq', hall', hstop'⟩ := genFilenames_spec output (outext.getD ext) e k b
  have : k' = k := by
    by_contra hne
    have h1 := hstop' (by omega)
    have h2 := (hall k' (by omega)).2
    rcases e with _ | m
    · simp [leEnd] at h1
    · have := h2 m rfl
      simp [leEnd] at h1; omega
  subst this
  unfold findSinglesToSingles
  show (yieldSingles dir base ext b e).zip
    (genFilenames output (outext.getD ext) e b (yieldSingles dir base ext b e).length) = _
  rw [hlen, heq', heq, List.zip_map']

/-- **C04.** No two inputs share an output. -/
theorem C04_outputs_distinct (dir : Dir) (base output ext : Text) (outext : Option Text) (b : ℤ)
    (e : Option ℤ) :
    ((findSinglesToSingles dir base output ext outext b e).map Prod.snd).Nodup := by
  obtain ⟨k, _, heq⟩ := C04_pairs dir base output ext outext b e
  rw [heq, List.map_map]
  refine List.nodup_range.map (fun x y hxy => ?_)
  have := fileName_injective _ _ hxy
  omega

example : findSinglesToSingles ["a00003.d".toList, "a00004.d".toList] "a".toList "b".toList ".d".toList
    (some ".x".toList) 3 (some 9) = [("a00003.d".toList, "b00003.x".toList), ("a00004.d".toList, "b00004.x".toList)] := by
  decide +kernel

/-! ## C05 -/

/-- **C05.** Output numbers are consecutive, starting at the smallest integer `≥ begin/g`
(at `begin` when rolling); bundle `i` is paired with output `start + i`. -/
theorem C05_group_numbering (dir : Dir) (base output ext : Text) (outext : Option Text) (g : ℕ)
    (hg : 1 ≤ g) (rolling : Bool) (b : ℤ) (e : Option ℤ) :
    ∃ start : ℤ, (rolling = true → start = b) ∧
      (rolling = false → b ≤ start * g ∧ (start - 1) * g < b) ∧
      ∃ k : ℕ, (yieldGroups dir base ext g rolling b e).length = k ∧
        findGroupsToSingles dir base output ext outext g rolling b e =
          (yieldGroups dir base ext g rolling b e).zip
            ((List.range k).map (fun i : ℕ => fileName output (outext.getD ext) (start + i))) := by
  refine ⟨if rolling then b else ceilDiv b g, fun h => by simp [h], fun h => ?_, _, rfl, ?_⟩
  · have hg0 : (0 : ℚ) < g := by exact_mod_cast hg
    simp only [h, Bool.false_eq_true, if_false, ceilDiv]
    constructor
    · have := Int.le_ceil ((b : ℚ) / g)
      rw [div_le_iff₀ hg0] at this
      exact_mod_cast this
    · have : ((⌈(b : ℚ) / g⌉ : ℚ) - 1) < (b : ℚ) / g := by
        have := Int.ceil_lt_add_one ((b : ℚ) / g); linarith
      rw [lt_div_iff₀ hg0] at this
      exact_mod_cast this
  · unfold findGroupsToSingles
    simp only
    rw [C01_gen_unbounded]

/-- **C05.** Without rolling, every output number is `ceil(N/g)` of the first frame `N`
of its own bundle, the documented rule. -/
theorem C05_group_number_is_ceil (g : ℕ) (hg : 1 ≤ g) (b : ℤ) (i : ℕ) :
    ceilDiv b g + i = ceilDiv (b + i * g) g := by
  have hg0 : (g : ℚ) ≠ 0 := by exact_mod_cast (by omega : g ≠ 0)
  unfold ceilDiv
  push_cast
  rw [add_div, mul_div_assoc, div_self hg0, mul_one, Int.ceil_add_natCast]

/-- **C05.** Outputs are pairwise distinct. -/
theorem C05_outputs_distinct (dir : Dir) (base output ext : Text) (outext : Option Text) (g : ℕ)
    (hg : 1 ≤ g) (rolling : Bool) (b : ℤ) (e : Option ℤ) :
    ((findGroupsToSingles dir base output ext outext g rolling b e).map Prod.snd).Nodup := by
  obtain ⟨start, _, _, k, hk, heq⟩ := C05_group_numbering dir base output ext outext g hg rolling b e
  rw [heq, List.map_snd_zip (by simp [hk])]
  refine List.nodup_range.map (fun x y hxy => ?_)
  have := fileName_injective _ _ hxy
  omega

example : findGroupsToSingles ["00003".toList, "00004".toList, "00005".toList, "00006".toList] [] "o".toList [] none 2 false 3 none
    = [(["00003".toList, "00004".toList], "o00002".toList), (["00005".toList, "00006".toList], "o00003".toList)] := by
  decide +kernel

/-! ## C06 -/

/-- **C06.** Preparing a path never fails to terminate, frees the target, moves an old target
(only) to the first free backup number, and leaves all other files untouched. -/
theorem C06_prepare_path_safe {γ : Type} (fs : FS γ) (p : Path) :
    ∃ fs', preparePath fs p = .ok fs' ∧ fs'.get? p = none ∧
      ((fs.get? p = none ∧ fs' = fs) ∨
       ∃ c i, fs.get? p = some c ∧ 1 ≤ i ∧ i ≤ fs.length + 1 ∧
         (∀ j, 1 ≤ j → j < i → fs.get? (backupPath p j) ≠ none) ∧
         fs.get? (backupPath p i) = none ∧ fs'.get? (backupPath p i) = some c ∧
         ∀ r, r ≠ p → r ≠ backupPath p i → fs'.get? r = fs.get? r) := by
  rcases backupTarget_spec fs p with ⟨h1, h2⟩ | ⟨h1, i, hi, hle, hall, hfree, h2⟩
  · exact ⟨fs, by simp [preparePath, h2], h1, Or.inl ⟨h1, rfl⟩⟩
  · obtain ⟨c, hc⟩ := Option.ne_none_iff_exists'.mp h1
    have hr : fs.rename p (backupPath p i) = (fs.remove p).put (backupPath p i) c := by
      simp [FS.rename, hc]
    have hget : ∀ r, (fs.rename p (backupPath p i)).get? r =
        if r = backupPath p i then some c else if r = p then none else fs.get? r := by
      intro r; rw [hr, get?_put, get?_remove]
    refine ⟨_, by simp [preparePath, h2]; rfl, ?_, Or.inr ⟨c, i, hc, hi, hle, hall, hfree, ?_, ?_⟩⟩
    · rw [hget, if_neg (backupPath_ne _ _).symm, if_pos rfl]
    · rw [hget, if_pos rfl]
    · intro r h1 h2; rw [hget, if_neg h2, if_neg h1]

/-- **C06.** The backup of `name` with number `i` is `#name.i#` in the same directory. -/
theorem C06_backup_name (dir name : Text) (i : ℕ) :
    ∃ num, backupPath (dir, name) i = (dir, ['#'] ++ name ++ ['.'] ++ num ++ ['#']) ∧
      readNumeral num = some i :=
  ⟨decimal i, by simp [backupPath], readNumeral_decimal i⟩

example : preparePath [(("d".toList, "f".toList), 7), (("d".toList, "#f.1#".toList), 5)] ("d".toList, "f".toList)
    = .ok [(("d".toList, "#f.2#".toList), 7), (("d".toList, "#f.1#".toList), 5)] := by decide +kernel

/-! ## C07 -/

/-- **C07.** Crash safety of any history.  Start from any file system, perform any complete
writes `ops`, then one more write that stops after `k` elementary steps (the last append cut
after `m` bytes).  The contents present are then exactly: everything present initially, one
file per completed write, and at most one partial file, a prefix of what was being written. -/
theorem C07_history_and_crash (fs : FS (List UInt8)) (h : (fs.map Prod.fst).Nodup)
    (ops : List WriteOp) (last : WriteOp) (k m : ℕ) :
    ∃ extra : List (List UInt8), extra.length ≤ 1 ∧ (∀ x ∈ extra, x <+: last.chunks.flatten) ∧
      ((last.crash (ops.foldl WriteOp.run fs) k m).map Prod.snd).Perm
        (extra ++ ops.map (fun op => op.chunks.flatten) ++ fs.map Prod.snd) := by
  have hist : ∀ (ops : List WriteOp) (fs : FS (List UInt8)), fs.Wf →
      (ops.foldl WriteOp.run fs).Wf ∧ (ops.foldl WriteOp.run fs).contents.Perm
        (ops.map (fun op => op.chunks.flatten) ++ fs.contents) := by
    intro ops
    induction ops with
    | nil => intro fs h; exact ⟨h, by simp⟩
    | cons op ops ih =>
      intro fs h
      obtain ⟨h1, h2, _⟩ := run_spec fs op h
      obtain ⟨h3, h4⟩ := ih (op.run fs) h1
      refine ⟨h3, ?_⟩
      simp only [List.foldl_cons, List.map_cons, List.cons_append]
      refine h4.trans ((h2.append_left _).trans ?_)
      exact List.perm_middle
  obtain ⟨h1, h2⟩ := hist ops fs h
  obtain ⟨extra, h3, h4, h5⟩ := crash_spec (ops.foldl WriteOp.run fs) last k m h1
  refine ⟨extra, h3, h4, ?_⟩
  rw [List.append_assoc]
  exact h5.trans (h2.append_left _)

/-- **C07.** After a complete write the target holds exactly what was written. -/
theorem C07_complete_write_visible (fs : FS (List UInt8)) (h : (fs.map Prod.fst).Nodup) (op : WriteOp) :
    (op.run fs).get? op.path = some op.chunks.flatten :=
  (run_spec fs op h).2.2

example : (WriteOp.crash (([⟨("d".toList, "f".toList), [[1], [2]]⟩, ⟨("d".toList, "f".toList), [[3]]⟩] : List WriteOp).foldl
      WriteOp.run [(("d".toList, "f".toList), [9])]) ⟨("d".toList, "f".toList), [[4], [5, 6]]⟩ 3 1).map Prod.snd
    = [[4, 5], [3], [1, 2], [9]] := by decide +kernel

/-! ## C59 -/

/-- **C59.** A completed conversion of a series: for every discovered frame, output `n` holds
the encoding of exactly what the decoder returned for the original input `n`.
`hdir`: the listing is that of the file system; `hcross`: no output is at the same time the input of a
later frame (see `C59_convert_in_place` for the in-place case). -/
theorem C59_convert {γ δ : Type} (dec : γ → Except Err δ) (enc : δ → γ) (fs : FS γ) (dir : Dir)
    (base output ext : Text) (outext : Option Text) (b : ℤ) (e : Option ℤ)
    (hslash : '/' ∉ outext.getD ext)
    (hdir : ∀ n, fileName base ext n ∈ dir → fs.get? (splitPath (fileName base ext n)) ≠ none)
    (hdec : ∀ n, fileName base ext n ∈ yieldSingles dir base ext b e →
      ∀ c, fs.get? (splitPath (fileName base ext n)) = some c → ∃ d, dec c = .ok d)
    (hcross : ∀ m n, m < n → splitPath (fileName output (outext.getD ext) m) ≠
      splitPath (fileName base ext n)) :
    ∃ fs', convert dec enc fs dir base output ext outext b e = .ok fs' ∧
      ∀ n, fileName base ext n ∈ yieldSingles dir base ext b e →
        ∃ c d, fs.get? (splitPath (fileName base ext n)) = some c ∧ dec c = .ok d ∧
          fs'.get? (splitPath (fileName output (outext.getD ext) n)) = some (enc d) := by
  obtain ⟨k, hfound, hpairs⟩ := C04_pairs dir base output ext outext b e
  have hmem : ∀ i : ℕ, i < k → fileName base ext (b + i) ∈ yieldSingles dir base ext b e := by
    intro i hi; rw [hfound]; exact List.mem_map.mpr ⟨i, List.mem_range.mpr hi, rfl⟩
  have hminus : ∀ n : ℤ, '/' ∉ fmt05 n := by
    have hd : ∀ (s : Text) (a r : ℕ), readDigits a s = some r → '/' ∉ s := by
      intro s
      induction s with
      | nil => simp
      | cons c cs ih =>
        intro a r hr
        simp only [readDigits] at hr
        rcases hc : digitValue c with _ | d
        · simp [hc] at hr
        · rw [hc] at hr
          simp only [List.mem_cons, not_or]
          exact ⟨by rintro rfl; simp [digitValue] at hc, ih _ _ hr⟩
    have hp : ∀ w n, '/' ∉ padded w n := by
      intro w n
      have h := readNumeral_padded w n
      unfold readNumeral at h
      split at h
      · simp at h
      · exact hd _ _ _ h
    intro n
    unfold fmt05
    split
    · exact hp _ _
    · simp [hp]
  have hsplit : ∀ n : ℤ, splitPath (fileName output (outext.getD ext) n) =
      ((splitPath output).1, (splitPath output).2 ++ (fmt05 n ++ outext.getD ext)) := by
    intro n
    unfold fileName
    rw [List.append_assoc]
    exact splitPath_append _ _ (by simp [hminus, hslash])
  have key := convertLoop_spec dec enc
    ((findSinglesToSingles dir base output ext outext b e).map
      (fun io => (splitPath io.1, splitPath io.2))) fs ?_ ?_ ?_
  · obtain ⟨fs', h1, h2⟩ := key
    refine ⟨fs', h1, ?_⟩
    intro n hn
    rw [hfound] at hn
    obtain ⟨i, hi, hin⟩ := List.mem_map.mp hn
    have hn' := fileName_injective _ _ hin
    subst hn'
    refine h2 (splitPath (fileName base ext (b + i)), splitPath (fileName output (outext.getD ext) (b + i))) ?_
    rw [hpairs, List.map_map]
    exact List.mem_map.mpr ⟨i, hi, rfl⟩
  · intro io hio
    rw [hpairs, List.map_map] at hio
    obtain ⟨i, hi, rfl⟩ := List.mem_map.mp hio
    have hm := hmem i (List.mem_range.mp hi)
    have hd := ((C02_discovery_mem_iff dir base ext b e (b + i)).mp hm).2.2 (b + i) (by omega) le_rfl
    obtain ⟨c, hc⟩ := Option.ne_none_iff_exists'.mp (hdir _ hd)
    obtain ⟨d, hd'⟩ := hdec _ hm c hc
    exact ⟨c, d, hc, hd'⟩
  · rw [hpairs, List.map_map, List.map_map]
    refine List.nodup_range.map (fun x y hxy => ?_)
    simp only [Function.comp, hsplit, Prod.mk.injEq, true_and] at hxy
    have := fmt05_injective (List.append_cancel_right (List.append_cancel_left hxy))
    omega
  · rw [hpairs, List.map_map, List.pairwise_map]
    refine List.pairwise_lt_range.imp ?_
    intro x y hxy
    exact hcross _ _ (by omega)

/-- **C59.** The side condition `hcross` holds for conversion in place (same base and extension). -/
theorem C59_convert_in_place (base ext : Text) (hext : '/' ∉ ext) (m n : ℤ) (h : m < n) :
    splitPath (fileName base ext m) ≠ splitPath (fileName base ext n) := by
  -- one-element conversions of frames `m` and `n` have distinct outputs
  have hnd : ∀ n : ℤ, '/' ∉ fmt05 n := by
    intro n hmem
    have hr := readInteger_fmt05 n
    have key : ∀ (s : Text) (a r : ℕ), readDigits a s = some r → '/' ∉ s := by
      intro s
      induction s with
      | nil => simp
      | cons c cs ih =>
        intro a r hr
        simp only [readDigits] at hr
        rcases hc : digitValue c with _ | d
        · simp [hc] at hr
        · rw [hc] at hr
          simp only [List.mem_cons, not_or]
          exact ⟨by rintro rfl; simp [digitValue] at hc, ih _ _ hr⟩
    have hp : ∀ w n, '/' ∉ padded w n := by
      intro w n
      have h := readNumeral_padded w n
      unfold readNumeral at h
      split at h
      · simp at h
      · exact key _ _ _ h
    unfold fmt05 at hmem
    split at hmem
    · exact hp _ _ hmem
    · simp [hp] at hmem
  intro heq
  unfold fileName at heq
  rw [List.append_assoc, List.append_assoc, splitPath_append _ _ (by simp [hnd, hext]),
    splitPath_append _ _ (by simp [hnd, hext]), Prod.mk.injEq] at heq
  have := fmt05_injective (List.append_cancel_right (List.append_cancel_left heq.2))
  omega

/-- **C59** (why `hcross` is needed): with output base `a1` and input base `a`, output 1 *is*
input 100001, which is therefore replaced before it is read. -/
theorem C59_cross_collision :
    fileName "a1".toList ".dat".toList 1 = fileName "a".toList ".dat".toList 100001 := by
  decide +kernel

example : convert (fun (c : ℕ) => Except.ok (c + 1)) (fun (d : ℕ) => d * 10)
    [((".".toList, "a00001".toList), 3), ((".".toList, "a00002".toList), 4)]
    ["a00001".toList, "a00002".toList] "a".toList "o/b".toList [] none 1 none =
    .ok [(("o".toList, "b00002".toList), 50), (("o".toList, "b00001".toList), 40),
      ((".".toList, "a00001".toList), 3), ((".".toList, "a00002".toList), 4)] := by decide +kernel

end Strata.Files
