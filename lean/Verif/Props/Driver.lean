import Verif.Proofs.Driver
import Verif.Spec.Driver
import Verif.Props.Files
import Verif.Props.SimpleAverage
import Verif.Props.Gmx
/-!
# Averaging a series of files: C56, C57
-/
namespace Strata.Driver
open Strata Strata.Flow Strata.Average Strata.SimpleAverage Strata.Files Strata.Bytes Strata.Simple

variable {γ : Type}

/-! ## C56 -/

theorem readGroup_of {read : γ → Except Err Map} {fs : FS γ} {files : List Text} {maps : List Map} (h : ReadsAs read fs files maps) :
    readGroup read fs (files.map splitPath) = .ok maps := by
  unfold ReadsAs at h
  induction h with
  | nil => rfl
  | cons h _ ih =>
    obtain ⟨c, hc, hr⟩ := h
    unfold readGroup at ih ⊢
    rw [List.map_cons, List.mapM_cons, hc]
    show (read c >>= fun m => _) = _
    rw [hr, Gmx.ok_bind, ih]
    rfl

theorem zip_map_range {α β : Type} (f : ℕ → α) (g : ℕ → β) (k : ℕ) :
    ((List.range k).map f).zip ((List.range k).map g) = (List.range k).map fun i => (f i, g i) := by
  rw [List.zip_map']

/-- The groups and outputs found, by number. -/
theorem groups_found (dir : Dir) (base output ext : Text) (outext : Option Text) (g : ℕ) (hg : 1 ≤ g) (rolling : Bool) (b : ℤ) (e : Option ℤ)
    (k : ℕ) (hk : ∀ i, i < k → Complete dir base ext b e g rolling i) (hk' : ¬ Complete dir base ext b e g rolling k) :
    ∃ start : ℤ, (rolling = true → start = b) ∧ (rolling = false → b ≤ start * g ∧ (start - 1) * g < b) ∧
      findGroupsToSingles dir base output ext outext g rolling b e =
        (List.range k).map fun i : ℕ => (groupFiles base ext b g rolling i, fileName output (outext.getD ext) (start + i)) := by
  obtain ⟨start, h1, h2, k', hk1, heq⟩ := C05_group_numbering dir base output ext outext g hg rolling b e
  obtain ⟨k'', hgr, hall, hstop⟩ := C03_groups dir base ext g hg rolling b e
  have hkk : k' = k'' := by rw [← hk1, hgr]; simp
  subst hkk
  have hk2 : k' = k := by
    rcases Nat.lt_trichotomy k' k with h | h | h
    · exfalso
      obtain ⟨j, hj, hbad⟩ := hstop
      have := hk k' h j hj
      unfold firstFrame at this
      rcases hbad with hbad | ⟨m, hm, hlt⟩
      · exact hbad this.1
      · have := this.2 m hm
        omega
    · exact h
    · exact absurd (fun j hj => hall k h j hj) hk'
  subst hk2
  refine ⟨start, h1, h2, ?_⟩
  rw [heq, hgr, zip_map_range]
  rfl

theorem fmt05_noslash (n : ℤ) : '/' ∉ fmt05 n := by
  intro hmem
  have key : ∀ (s : Text) (a r : ℕ), Spec.readDigits a s = some r → '/' ∉ s := by
    intro s
    induction s with
    | nil => simp
    | cons c cs ih =>
      intro a r hr
      simp only [Spec.readDigits] at hr
      rcases hc : Spec.digitValue c with _ | d
      · simp [hc] at hr
      · rw [hc] at hr
        simp only [List.mem_cons, not_or]
        exact ⟨by rintro rfl; simp [Spec.digitValue] at hc, ih _ _ hr⟩
  have hp : ∀ w n, '/' ∉ padded w n := by
    intro w n
    have h := readNumeral_padded w n
    unfold Spec.readNumeral at h
    split at h
    · simp at h
    · exact key _ _ _ h
  unfold fmt05 at hmem
  split at hmem
  · exact hp _ _ hmem
  · simp [hp] at hmem

theorem splitPath_fileName_injective (base ext : Text) (hext : '/' ∉ ext) {m n : ℤ}
    (h : splitPath (fileName base ext m) = splitPath (fileName base ext n)) : m = n := by
  unfold fileName at h
  rw [List.append_assoc, List.append_assoc, splitPath_append _ _ (by simp [fmt05_noslash, hext]),
    splitPath_append _ _ (by simp [fmt05_noslash, hext]), Prod.mk.injEq] at h
  exact fmt05_injective (List.append_cancel_right (List.append_cancel_left h.2))

/-- **C56.** Let groups `0, …, k-1` be complete and group `k` not.  If the maps of each complete group can be read, averaged
and written, and no output is an input of a later group, then output `start + i` (`start` being the number of the first frame divided
by the group size, rounded up, or the number of the first frame for rolling averages) contains the average of exactly the
maps that the files of group `i` had before the call, whatever the other groups contain; all files that are not outputs are unchanged; the call returns
normally if it is not quiet. -/
theorem C56_series_partial (read : γ → Except Err Map) (write : Record → DInfo → Option γ × Except Err Unit)
    (edges : Flow → Except Err (Option ℚ × Option ℚ)) (o : Opts) (fs : FS γ) (dir : Dir) (base output ext : Text) (outext : Option Text)
    (g : ℕ) (hg : 1 ≤ g) (rolling : Bool) (b : ℤ) (e : Option ℤ) (hslash : '/' ∉ outext.getD ext)
    (k : ℕ) (hk : ∀ i, i < k → Complete dir base ext b e g rolling i) (hk' : ¬ Complete dir base ext b e g rolling k)
    (maps : ℕ → List Map) (avg : ℕ → Record) (info : ℕ → DInfo) (content : ℕ → γ)
    (hread : ∀ i, i < k → ReadsAs read fs (groupFiles base ext b g rolling i) (maps i))
    (havg : ∀ i, i < k → averageGroup edges o (maps i) = .ok (avg i, info i))
    (hwrite : ∀ i, i < k → write (avg i) (info i) = (some (content i), .ok ())) :
    ∃ start : ℤ, (rolling = true → start = b) ∧ (rolling = false → b ≤ start * g ∧ (start - 1) * g < b) ∧
      ((∀ i i', i < i' → i' < k → splitPath (fileName output (outext.getD ext) (start + i)) ∉ (groupFiles base ext b g rolling i').map splitPath) →
        (o.quiet = false → (average read write edges o fs dir base output ext outext g rolling b e).2 = .ok ()) ∧
        (∀ i : ℕ, i < k → (average read write edges o fs dir base output ext outext g rolling b e).1.get?
          (splitPath (fileName output (outext.getD ext) (start + i))) = some (content i)) ∧
        ∀ p, fs.get? p ≠ none → (∀ i : ℕ, i < k → splitPath (fileName output (outext.getD ext) (start + i)) ≠ p) →
          (average read write edges o fs dir base output ext outext g rolling b e).1.get? p = fs.get? p) := by
  obtain ⟨start, h1, h2, hfound⟩ := groups_found dir base output ext outext g hg rolling b e k hk hk'
  refine ⟨start, h1, h2, ?_⟩
  intro hcross
  unfold average
  rw [hfound, List.map_map]
  have hgr : ∀ i, i < k → (readGroup read fs ((groupFiles base ext b g rolling i).map splitPath) >>= averageGroup edges o) = .ok (avg i, info i) := by
    intro i hi
    rw [readGroup_of (hread i hi), Gmx.ok_bind, havg i hi]
  obtain ⟨hres, hall⟩ := averageLoop_spec read write edges o ((List.range k).map ((fun io => (io.1.map splitPath, splitPath io.2)) ∘ fun i : ℕ =>
    (groupFiles base ext b g rolling i, fileName output (outext.getD ext) (start + i)))) fs (by
      intro io hio
      obtain ⟨i, hi, rfl⟩ := List.mem_map.mp hio
      exact ⟨_, _, _, hgr i (List.mem_range.mp hi), hwrite i (List.mem_range.mp hi)⟩) (by
      rw [List.map_map]
      refine List.nodup_range.map fun x y hxy => ?_
      have := splitPath_fileName_injective _ _ hslash hxy
      omega) (by
      rw [List.pairwise_map]
      refine List.Pairwise.imp_of_mem ?_ List.pairwise_lt_range
      intro x y _ hy hxy
      exact hcross x y hxy (List.mem_range.mp hy))
  refine ⟨?_, ?_, ?_⟩
  · intro hq
    rw [hres, hq]
    rfl
  · intro i hi
    exact hall _ (List.mem_map.mpr ⟨i, List.mem_range.mpr hi, rfl⟩) _ _ _ (hgr i hi) (hwrite i hi)
  · intro p hp hne
    refine averageLoop_keeps read write edges o _ fs p hp ?_
    intro io hio
    obtain ⟨i, hi, rfl⟩ := List.mem_map.mp hio
    exact hne i (List.mem_range.mp hi)

/-- **C56, in place.** Averaging onto the same base and extension is safe: the outputs of a series that starts at frame 1 or
later are never inputs of a later group. -/
theorem C56_in_place (base ext : Text) (hext : '/' ∉ ext) (b : ℤ) (hb : 1 ≤ b) (g : ℕ) (hg : 1 ≤ g) (rolling : Bool) (start : ℤ)
    (h1 : rolling = true → start = b) (h2 : rolling = false → b ≤ start * g ∧ (start - 1) * g < b) (i i' : ℕ) (hi : i < i') :
    splitPath (fileName base ext (start + i)) ∉ (groupFiles base ext b g rolling i').map splitPath := by
  intro hmem
  unfold groupFiles at hmem
  rw [List.map_map] at hmem
  obtain ⟨j, -, hj⟩ := List.mem_map.mp hmem
  have := splitPath_fileName_injective _ _ hext hj
  unfold firstFrame at this
  cases rolling with
  | true =>
    rw [h1 rfl] at this
    simp only [if_true, Nat.cast_one, mul_one] at this
    omega
  | false =>
    obtain ⟨-, h4⟩ := h2 rfl
    simp only [Bool.false_eq_true, if_false] at this
    have hg' : (1 : ℤ) ≤ g := by exact_mod_cast hg
    have hii : (i : ℤ) + 1 ≤ i' := by exact_mod_cast hi
    have hs : start ≤ b := by
      by_contra hlt
      push Not at hlt
      have : b * 1 ≤ (start - 1) * g := mul_le_mul (by omega) hg' (by omega) (by omega)
      omega
    have hj0 : (0 : ℤ) ≤ j := by positivity
    nlinarith

/-- **C56, quiet.** With `quiet=True` the call always ends in an exception. -/
theorem C56_quiet_always_raises (read : γ → Except Err Map) (write : Record → DInfo → Option γ × Except Err Unit)
    (edges : Flow → Except Err (Option ℚ × Option ℚ)) (o : Opts) (hq : o.quiet = true) (fs : FS γ) (dir : Dir) (base output ext : Text)
    (outext : Option Text) (g : ℕ) (rolling : Bool) (b : ℤ) (e : Option ℤ) :
    ∃ err, (average read write edges o fs dir base output ext outext g rolling b e).2 = .error err := by
  unfold average
  generalize (findGroupsToSingles dir base output ext outext g rolling b e).map (fun io => (io.1.map splitPath, splitPath io.2)) = pairs
  induction pairs generalizing fs with
  | nil => exact ⟨.unboundLocalError, by rw [averageLoop, hq]; rfl⟩
  | cons io rest ih =>
    obtain ⟨ps, out⟩ := io
    obtain ⟨fs1, hp, -, -⟩ := preparePath_spec fs out
    rw [averageLoop]
    cases hg : (readGroup read fs ps >>= averageGroup edges o) with
    | error err => exact ⟨err, rfl⟩
    | ok di =>
      obtain ⟨d, i⟩ := di
      simp only [hp]
      rcases hw : write d i with ⟨c, res⟩
      cases res with
      | error err => exact ⟨err, rfl⟩
      | ok u =>
        cases c with
        | none => exact ih fs1
        | some c => exact ih _

theorem mapM_cutMap_plain {o : Opts} (ho : Plain o) (maps : List Map) : maps.mapM (cutMap o) = .ok maps := by
  have : ∀ m, cutMap o m = .ok m := by
    intro m
    unfold cutMap Opts.cuts
    rw [ho.1, ho.2.1]
    rfl
  induction maps with
  | nil => rfl
  | cons m ms ih => rw [List.mapM_cons, this, Gmx.ok_bind, ih]; rfl

/-- **C56, content.** Without options that change the maps, what is written for a group of maps (read by the same module, of the
same fields and size, on the same grid within the tolerances of 10⁻³ and 10⁻⁵ relative) has the coordinates of its first map, the mean M and N, the mass
weighted mean U and V, and the number weighted mean T; with the information of its last map. -/
theorem C56_content (edges : Flow → Except Err (Option ℚ × Option ℚ)) (o : Opts) (ho : Plain o) (m : Map) (ms : List Map) (n : ℕ)
    (hmod : ∀ m' ∈ ms, m'.2.2 = m.2.2) (h : ∀ m' ∈ m :: ms, HasFields m'.1 n)
    (hc : ∀ m' ∈ ms, Close (1 / 1000) (1 / 100000) n m.1 m'.1) :
    ∃ avg, averageGroup edges o (m :: ms) = .ok (avg, ((m :: ms).getLastD m).2.1) ∧ names avg = ["X", "Y", "M", "N", "U", "V", "T"] ∧
      (∀ c ∈ avg, c.2.length = n) ∧
      ∀ t, t < n → val avg "X" t = val m.1 "X" t ∧ val avg "Y" t = val m.1 "Y" t ∧
        (∀ l ∈ ["M", "N"], val avg l t = ((m :: ms).map fun m' => val m'.1 l t).sum / ((ms.length : ℚ) + 1)) ∧
        (∀ p ∈ [("U", "M"), ("V", "M"), ("T", "N")],
          (((m :: ms).map fun m' => val m'.1 p.2 t).sum ≠ 0 →
            val avg p.1 t = ((m :: ms).map fun m' => val m'.1 p.1 t * val m'.1 p.2 t).sum / ((m :: ms).map fun m' => val m'.1 p.2 t).sum) ∧
          ((∀ m' ∈ m :: ms, val m'.1 p.2 t = 0) → val avg p.1 t = 0)) := by
  obtain ⟨avg, havg, hn, hl, hv⟩ := C54_average m.1 (ms.map Prod.fst) n (1 / 1000) (1 / 100000) (by
      intro d hd
      rw [← List.map_cons] at hd
      obtain ⟨m', hm', rfl⟩ := List.mem_map.mp hd
      exact h m' hm') (by
      intro d hd
      obtain ⟨m', hm', rfl⟩ := List.mem_map.mp hd
      exact hc m' hm')
  refine ⟨avg, ?_, hn, hl, ?_⟩
  · unfold averageGroup
    rw [mapM_cutMap_plain ho, Gmx.ok_bind]
    have hlast : (m :: ms).getLast? = some ((m :: ms).getLastD m) := by
      rw [List.getLastD_eq_getLast?, List.getLast?_eq_some_getLast (by simp)]; rfl
    have hmem : (m :: ms).getLastD m ∈ m :: ms := List.mem_of_getLast? hlast
    rw [hlast]
    simp only
    have hall : ((m :: ms).all fun m' => m'.2.2 == ((m :: ms).getLastD m).2.2) = true := by
      rw [List.all_eq_true]
      intro m' hm'
      have h1 : ∀ m' ∈ m :: ms, m'.2.2 = m.2.2 := by
        intro m' hm'
        rcases List.mem_cons.mp hm' with rfl | hm'
        · rfl
        · exact hmod m' hm'
      rw [h1 m' hm', h1 _ hmem]
      exact beq_self_eq_true _
    rw [if_pos hall]
    unfold recenterGroup
    rw [ho.2.2.1]
    simp only
    rw [Gmx.ok_bind]
    simp only
    rw [List.map_cons, havg, Gmx.ok_bind]
    unfold combineGroup
    rw [ho.2.2.2.1, Gmx.ok_bind]
    unfold supersampleGroup
    rw [ho.2.2.2.2]
  · intro t ht
    have := hv t ht
    simp only [← List.map_cons, List.map_map, List.length_map, List.forall_mem_map] at this
    exact this

/-! ## C57 -/

theorem gmxWrite_mismatch (F : F32) {d : Record} {i : DInfo} {c : List ℚ} (hc : col? d "M" = some c) (hl : c.length ≠ i.shape.1 * i.shape.2) :
    gmxWrite F d i = (none, .error .indexError) := by
  have : Gmx.writeData F d ⟨i.shape, (i.spacing.1.getD 0, i.spacing.2.getD 0), i.origin.getD (0, 0)⟩ = .error .indexError := by
    unfold Gmx.writeData
    rw [hc]
    show (Except.ok c >>= fun c => _) = _
    rw [Gmx.ok_bind]
    simp only
    have hm : ∀ g : ℕ → ℕ, Gmx.masked (c.map fun m => decide (m ≠ 0)) ((List.range (i.shape.1 * i.shape.2)).map g) = .error .indexError := by
      intro g
      unfold Gmx.masked
      rw [if_pos (by simpa using hl)]
    rw [hm]
    rfl
  unfold gmxWrite
  rw [this]

theorem gmxWrite_ok (F : F32) {d : Record} {i : DInfo} {or : ℚ × ℚ} (h : ∀ l ∈ ["N", "T", "M", "U", "V"], ∃ c, col? d l = some c ∧ c.length = i.shape.1 * i.shape.2)
    (ho : i.origin = some or) : ∃ bytes, Gmx.writeData F d ⟨i.shape, (i.spacing.1.getD 0, i.spacing.2.getD 0), or⟩ = .ok bytes ∧
      gmxWrite F d i = (some bytes, .ok ()) := by
  have hw := Gmx.writeData_eq F d ⟨i.shape, (i.spacing.1.getD 0, i.spacing.2.getD 0), or⟩ h
  refine ⟨_, hw, ?_⟩
  unfold gmxWrite
  rw [ho, Option.getD_some, hw]
  simp

/-- **C57 (part).** Without options that change the maps, the data passed to the writer has one value for each bin of the information passed to it
(given that the files of the group agree in their number of bins), and is written. -/
theorem C57_plain_partial (F : F32) (edges : Flow → Except Err (Option ℚ × Option ℚ)) (o : Opts) (ho : Plain o) (m : Map) (ms : List Map)
    (hmod : ∀ m' ∈ ms, m'.2.2 = m.2.2)
    (h : ∀ m' ∈ m :: ms, HasFields m'.1 (((m :: ms).getLastD m).2.1.shape.1 * ((m :: ms).getLastD m).2.1.shape.2))
    (hc : ∀ m' ∈ ms, Close (1 / 1000) (1 / 100000) (((m :: ms).getLastD m).2.1.shape.1 * ((m :: ms).getLastD m).2.1.shape.2) m.1 m'.1)
    (hor : ((m :: ms).getLastD m).2.1.origin ≠ none) :
    ∃ avg info bytes, averageGroup edges o (m :: ms) = .ok (avg, info) ∧ Consistent avg info ∧ gmxWrite F avg info = (some bytes, .ok ()) := by
  obtain ⟨avg, h1, h2, h3, -⟩ := C56_content edges o ho m ms _ hmod h hc
  obtain ⟨or, hor⟩ := Option.ne_none_iff_exists'.mp hor
  obtain ⟨bytes, -, hb⟩ := gmxWrite_ok F (d := avg) (i := ((m :: ms).getLastD m).2.1) (or := or) (by
    intro l hl
    have hl' : l ∈ names avg := by
      rw [h2]
      simp only [List.mem_cons, List.not_mem_nil, or_false] at hl ⊢
      tauto
    obtain ⟨c, hcol⟩ := (col?_isSome_iff avg l).mpr hl'
    exact ⟨c, hcol, h3 _ (lookup_mem hcol)⟩) hor
  exact ⟨avg, _, bytes, h1, h3, hb⟩

/-- The result of a group, step by step. -/
theorem averageGroup_ok {edges : Flow → Except Err (Option ℚ × Option ℚ)} {o : Opts} {maps : List Map} {d : Record} {i : DInfo}
    (h : averageGroup edges o maps = .ok (d, i)) :
    ∃ maps' last ds info avg avg', maps.mapM (cutMap o) = .ok maps' ∧ maps'.getLast? = some last ∧
      recenterGroup edges o (maps'.map Prod.fst) last.2.1 = .ok (ds, info) ∧ averageData ds = .ok avg ∧
      combineGroup o avg info = .ok avg' ∧ supersampleGroup o avg' info = .ok (d, i) := by
  unfold averageGroup at h
  obtain ⟨maps', h1, h⟩ := bind_eq_ok h
  cases hl : maps'.getLast? with
  | none => rw [hl] at h; cases h
  | some last =>
    rw [hl] at h
    simp only at h
    split at h
    · obtain ⟨⟨ds, info⟩, h2, h⟩ := bind_eq_ok h
      obtain ⟨avg, h3, h⟩ := bind_eq_ok h
      obtain ⟨avg', h4, h⟩ := bind_eq_ok h
      exact ⟨maps', last, ds, info, avg, avg', h1, hl, h2, h3, h4, h⟩
    · cases h

/-- **C57, counterexample: combining.** Whenever bins are combined (by factors of at least 1 whose product is at least 2), the information passed to the
writer is that of the bins before, and writing raises `IndexError`, for every group of maps and all other options. -/
theorem C57_combining_is_never_written (F : F32) (edges : Flow → Except Err (Option ℚ × Option ℚ)) (o : Opts) (nx ny : ℕ) (hco : o.combine = some (nx, ny))
    (hn : 2 ≤ nx * ny) (hs : o.supersample = none) (maps : List Map) (d : Record) (i : DInfo) (h : averageGroup edges o maps = .ok (d, i))
    (hi : 0 < i.shape.1 * i.shape.2) :
    (∃ c, col? d "M" = some c ∧ c.length = i.shape.1 / nx * (i.shape.2 / ny)) ∧ ¬ Consistent d i ∧ gmxWrite F d i = (none, .error .indexError) := by
  obtain ⟨maps', last, ds, info, avg, avg', -, -, -, -, h4, h5⟩ := averageGroup_ok h
  unfold supersampleGroup at h5
  rw [hs] at h5
  cases h5
  unfold combineGroup at h4
  rw [hco] at h4
  simp only at h4
  cases hor : i.origin with
  | none => rw [hor] at h4; cases h4
  | some or =>
    rw [hor] at h4
    simp only at h4
    obtain ⟨⟨r, ci⟩, h6, h7⟩ := bind_eq_ok h4
    cases h7
    have hnx : 0 < nx := Nat.pos_of_ne_zero (by rintro rfl; simp at hn)
    have hny : 0 < ny := Nat.pos_of_ne_zero (by rintro rfl; simp at hn)
    unfold combineBins at h6
    rw [if_neg (by omega)] at h6
    obtain ⟨n, hN, h6⟩ := bind_eq_ok h6
    obtain ⟨m, hM, h6⟩ := bind_eq_ok h6
    obtain ⟨t, hT, h6⟩ := bind_eq_ok h6
    obtain ⟨u, hU, h6⟩ := bind_eq_ok h6
    obtain ⟨v, hV, h6⟩ := bind_eq_ok h6
    cases h6
    have hlen : m.length = i.shape.1 / nx * (i.shape.2 / ny) := by
      unfold combineField at hM
      obtain ⟨f, -, hM⟩ := bind_eq_ok hM
      cases hM
      simp
    have hlt : i.shape.1 / nx * (i.shape.2 / ny) < i.shape.1 * i.shape.2 := by
      have h1 : i.shape.1 / nx ≤ i.shape.1 := Nat.div_le_self _ _
      have h2 : i.shape.2 / ny ≤ i.shape.2 := Nat.div_le_self _ _
      have p1 : 0 < i.shape.1 := Nat.pos_of_mul_pos_right hi
      have p2 : 0 < i.shape.2 := Nat.pos_of_mul_pos_left hi
      by_cases hx : 2 ≤ nx
      · have : i.shape.1 / nx < i.shape.1 := Nat.div_lt_self p1 hx
        calc _ ≤ i.shape.1 / nx * i.shape.2 := Nat.mul_le_mul_left _ h2
          _ < _ := Nat.mul_lt_mul_of_pos_right this p2
      · have hx1 : nx = 1 := by omega
        have hy : 2 ≤ ny := by rw [hx1] at hn; omega
        have : i.shape.2 / ny < i.shape.2 := Nat.div_lt_self p2 hy
        calc _ ≤ i.shape.1 * (i.shape.2 / ny) := Nat.mul_le_mul_right _ h1
          _ < _ := Nat.mul_lt_mul_of_pos_left this p1
    refine ⟨⟨m, rfl, hlen⟩, ?_, gmxWrite_mismatch F (c := m) rfl (by rw [hlen]; exact hlt.ne)⟩
    intro hcons
    have := hcons ("M", m) (by simp)
    simp only at this
    omega

/-- **C57, counterexample: supersampling.** With supersampling the information passed to the writer has no origin, and writing never succeeds. -/
theorem C57_supersampling_is_never_written (F : F32) (edges : Flow → Except Err (Option ℚ × Option ℚ)) (o : Opts) (n : ℕ) (hs : o.supersample = some n)
    (maps : List Map) (d : Record) (i : DInfo) (h : averageGroup edges o maps = .ok (d, i)) :
    i.origin = none ∧ ∃ e, (gmxWrite F d i).2 = .error e := by
  obtain ⟨maps', last, ds, info, avg, avg', -, -, -, -, -, h5⟩ := averageGroup_ok h
  unfold supersampleGroup at h5
  rw [hs] at h5
  obtain ⟨f, -, h5⟩ := bind_eq_ok h5
  obtain ⟨g, -, h5⟩ := bind_eq_ok h5
  cases h5
  refine ⟨rfl, ?_⟩
  unfold gmxWrite
  split
  · exact ⟨_, rfl⟩
  · exact ⟨.keyError, rfl⟩

/-- **C57, counterexample: a series.** A supersampled average of any series with at least one complete group of files ends in an exception. -/
theorem C57_supersampled_series_raises (F : F32) (read : Bytes → Except Err Map) (edges : Flow → Except Err (Option ℚ × Option ℚ)) (o : Opts) (n : ℕ)
    (hs : o.supersample = some n) (fs : FS Bytes) (dir : Dir) (base output ext : Text) (outext : Option Text) (g : ℕ) (hg : 1 ≤ g) (rolling : Bool) (b : ℤ)
    (e : Option ℤ) (k : ℕ) (hk0 : 0 < k) (hk : ∀ i, i < k → Complete dir base ext b e g rolling i) (hk' : ¬ Complete dir base ext b e g rolling k) :
    ∃ err, (average read (gmxWrite F) edges o fs dir base output ext outext g rolling b e).2 = .error err := by
  obtain ⟨start, -, -, hfound⟩ := groups_found dir base output ext outext g hg rolling b e k hk hk'
  unfold average
  rw [hfound]
  obtain ⟨k, rfl⟩ : ∃ k', k = k' + 1 := ⟨k - 1, by omega⟩
  rw [List.range_succ_eq_map]
  simp only [List.map_cons]
  rw [averageLoop]
  cases hgr : (readGroup read fs ((groupFiles base ext b g rolling 0).map splitPath) >>= averageGroup edges o) with
  | error err => exact ⟨err, rfl⟩
  | ok di =>
    obtain ⟨d, i⟩ := di
    obtain ⟨ms, -, hav⟩ := bind_eq_ok hgr
    obtain ⟨-, err, herr⟩ := C57_supersampling_is_never_written F edges o n hs ms d i hav
    simp only
    cases hp : preparePath fs (splitPath (fileName output (outext.getD ext) (start + ((0 : ℕ) : ℤ)))) with
    | error err => exact ⟨err, rfl⟩
    | ok fs' =>
      simp only
      rcases hw : gmxWrite F d i with ⟨c, res⟩
      rw [hw] at herr
      simp only at herr
      subst herr
      exact ⟨err, rfl⟩

theorem averageData_M {d0 : Record} {rest : List Record} {avg : Record} (h : averageData (d0 :: rest) = .ok avg) :
    ∃ m c0, col? avg "M" = some m ∧ col? d0 "M" = some c0 ∧ m.length = c0.length := by
  unfold SimpleAverage.averageData at h
  simp only at h
  obtain ⟨x, _, h⟩ := bind_eq_ok h
  obtain ⟨y, _, h⟩ := bind_eq_ok h
  obtain ⟨_, _, h⟩ := bind_eq_ok h
  obtain ⟨_, _, h⟩ := bind_eq_ok h
  obtain ⟨_, _, h⟩ := bind_eq_ok h
  obtain ⟨_, _, h⟩ := bind_eq_ok h
  obtain ⟨_, _, h⟩ := bind_eq_ok h
  obtain ⟨m, hm, h⟩ := bind_eq_ok h
  obtain ⟨n, -, h⟩ := bind_eq_ok h
  obtain ⟨u, -, h⟩ := bind_eq_ok h
  obtain ⟨v, -, h⟩ := bind_eq_ok h
  obtain ⟨t, -, h⟩ := bind_eq_ok h
  cases h
  unfold getAvg at hm
  obtain ⟨cs, hcs, hm⟩ := bind_eq_ok hm
  obtain ⟨s, hs, hm⟩ := bind_eq_ok hm
  cases hm
  rw [List.mapM_cons] at hcs
  obtain ⟨c0, hc0, hcs⟩ := bind_eq_ok hcs
  obtain ⟨cs', -, hcs⟩ := bind_eq_ok hcs
  cases hcs
  refine ⟨_, c0, rfl, ?_, ?_⟩
  · unfold key at hc0
    cases hcol : col? d0 "M" with
    | none => rw [hcol] at hc0; cases hc0
    | some c => rw [hcol] at hc0; cases hc0; rfl
  · unfold sumArrays at hs
    simp only at hs
    split at hs
    · cases hs; simp
    · cases hs

theorem key_of {d : Record} {l : Label} {c : List ℚ} (h : col? d l = some c) : key d l = .ok c := by
  unfold key
  rw [h]
  rfl

theorem limit_min {lim : Option ℚ} {c : List ℚ} (h : c ≠ []) : ∃ a, limit lim (npMin c) = .ok a ∧ ∀ x ∈ c, (a ≤ x ↔ ∀ b, lim = some b → b ≤ x) := by
  cases lim with
  | some b => exact ⟨b, rfl, fun x _ => by simp⟩
  | none =>
    obtain ⟨m, hm⟩ := npMin_exists h
    refine ⟨m, hm, fun x hx => ?_⟩
    have := ((npMin_ok_iff c m).mp hm).2 x hx
    simp [this]

theorem limit_max {lim : Option ℚ} {c : List ℚ} (h : c ≠ []) : ∃ a, limit lim (npMax c) = .ok a ∧ ∀ x ∈ c, (x ≤ a ↔ ∀ b, lim = some b → x ≤ b) := by
  cases lim with
  | some b => exact ⟨b, rfl, fun x _ => by simp⟩
  | none =>
    obtain ⟨m, hm⟩ := npMax_exists h
    refine ⟨m, hm, fun x hx => ?_⟩
    have := ((npMax_ok_iff c m).mp hm).2 x hx
    simp [this]

/-- **C57, cutting.** `cut_system` keeps exactly the rows whose coordinates lie within the (closed, optional) limits, in order and with all fields. -/
theorem C57_cut_rows (d : Record) (n : ℕ) (hn : 0 < n) (hw : ∀ c ∈ d, c.2.length = n) (hX : "X" ∈ names d) (hY : "Y" ∈ names d)
    (xlim ylim : Option ℚ × Option ℚ) :
    cutSystem d xlim ylim = .ok (d.map fun c => (c.1, ((List.range n).filter fun t =>
      decide (Within xlim.1 xlim.2 (val d "X" t) ∧ Within ylim.1 ylim.2 (val d "Y" t))).map fun t => c.2.getD t 0)) := by
  obtain ⟨xs, hxs⟩ := (col?_isSome_iff d "X").mpr hX
  obtain ⟨ys, hys⟩ := (col?_isSome_iff d "Y").mpr hY
  have lx : xs.length = n := hw _ (lookup_mem hxs)
  have ly : ys.length = n := hw _ (lookup_mem hys)
  have nex : xs ≠ [] := by rintro rfl; simp at lx; omega
  have ney : ys ≠ [] := by rintro rfl; simp at ly; omega
  obtain ⟨x0, hx0, hx0'⟩ := limit_min (lim := xlim.1) nex
  obtain ⟨x1, hx1, hx1'⟩ := limit_max (lim := xlim.2) nex
  obtain ⟨y0, hy0, hy0'⟩ := limit_min (lim := ylim.1) ney
  obtain ⟨y1, hy1, hy1'⟩ := limit_max (lim := ylim.2) ney
  unfold cutSystem
  rw [key_of hxs, Gmx.ok_bind, key_of hys, Gmx.ok_bind, hx0, Gmx.ok_bind, hx1, Gmx.ok_bind, hy0, Gmx.ok_bind, hy1, Gmx.ok_bind,
    if_neg (by rw [lx, ly]; simp), if_pos (by rw [List.all_eq_true]; intro c hc; rw [hw c hc, lx]; simp)]
  unfold gather pick
  congr 1
  refine List.map_congr_left fun c _ => ?_
  congr 2
  rw [lx]
  refine List.filter_congr fun t ht => ?_
  rw [List.mem_range] at ht
  have m1 : xs.getD t 0 ∈ xs := by rw [List.getD_eq_getElem?_getD, List.getElem?_eq_getElem (by omega), Option.getD_some]; exact List.getElem_mem _
  have m2 : ys.getD t 0 ∈ ys := by rw [List.getD_eq_getElem?_getD, List.getElem?_eq_getElem (by omega), Option.getD_some]; exact List.getElem_mem _
  rw [val_of_col hxs, val_of_col hys]
  simp only [decide_eq_decide]
  rw [hx0' _ m1, hx1' _ m1, hy0' _ m2, hy1' _ m2]
  unfold Within
  tauto

/-- **C57, counterexample: cutting.** Whenever a bin of the first map of a group lies outside of the limits (and no other option changes the maps),
the information passed to the writer is that of the uncut maps, and writing raises `IndexError`. -/
theorem C57_cutting_is_never_written (F : F32) (edges : Flow → Except Err (Option ℚ × Option ℚ)) (o : Opts)
    (hr : o.recenter = none) (hco : o.combine = none) (hs : o.supersample = none) (m : Map) (ms : List Map) (avg : Record) (i : DInfo)
    (h : averageGroup edges o (m :: ms) = .ok (avg, i)) (hw : ∀ c ∈ m.1, c.2.length = i.shape.1 * i.shape.2)
    (t : ℕ) (ht : t < i.shape.1 * i.shape.2) (hout : ¬ (Within o.xlim.1 o.xlim.2 (val m.1 "X" t) ∧ Within o.ylim.1 o.ylim.2 (val m.1 "Y" t))) :
    ¬ Consistent avg i ∧ gmxWrite F avg i = (none, .error .indexError) := by
  have hcuts : o.cuts = true := by
    unfold Opts.cuts
    by_contra hc
    simp only [Bool.or_eq_true, Option.isSome_iff_ne_none, ne_eq, not_or, not_not] at hc
    obtain ⟨⟨⟨h1, h2⟩, h3⟩, h4⟩ := hc
    refine hout ⟨?_, ?_⟩ <;> simp [Within, h1, h2, h3, h4]
  obtain ⟨maps', last, ds, info, avg', avg'', h1, h2, h3, h4, h5, h6⟩ := averageGroup_ok h
  unfold supersampleGroup at h6
  rw [hs] at h6
  cases h6
  unfold combineGroup at h5
  rw [hco] at h5
  cases h5
  unfold recenterGroup at h3
  rw [hr] at h3
  cases h3
  rw [List.mapM_cons] at h1
  obtain ⟨m', hm', h1⟩ := bind_eq_ok h1
  obtain ⟨ms', hms', h1⟩ := bind_eq_ok h1
  cases h1
  unfold cutMap at hm'
  rw [if_pos hcuts] at hm'
  obtain ⟨d', hd', hm'⟩ := bind_eq_ok hm'
  cases hm'
  rw [List.map_cons] at h4
  obtain ⟨mc, c0, hmc, hc0, hlen⟩ := averageData_M h4
  have hX : "X" ∈ names m.1 := by
    rw [← col?_isSome_iff]
    unfold cutSystem at hd'
    obtain ⟨x, hx, -⟩ := bind_eq_ok hd'
    cases hcol : col? m.1 "X" with
    | none => unfold key at hx; rw [hcol] at hx; cases hx
    | some c => exact ⟨c, rfl⟩
  have hY : "Y" ∈ names m.1 := by
    rw [← col?_isSome_iff]
    unfold cutSystem at hd'
    obtain ⟨x, -, hd'⟩ := bind_eq_ok hd'
    obtain ⟨x, hx, -⟩ := bind_eq_ok hd'
    cases hcol : col? m.1 "Y" with
    | none => unfold key at hx; rw [hcol] at hx; cases hx
    | some c => exact ⟨c, rfl⟩
  rw [C57_cut_rows m.1 _ (by omega) hw hX hY] at hd'
  cases hd'
  have hlt : mc.length < last.2.1.shape.1 * last.2.1.shape.2 := by
    rw [hlen]
    obtain ⟨c1, -, rfl⟩ : ∃ c1, col? m.1 "M" = some c1 ∧ _ = c0 := by
      simp only [col?] at hc0 ⊢
      rw [lookup_map_snd (fun c : List ℚ => ((List.range (last.2.1.shape.1 * last.2.1.shape.2)).filter fun t =>
        decide (Within o.xlim.1 o.xlim.2 (val m.1 "X" t) ∧ Within o.ylim.1 o.ylim.2 (val m.1 "Y" t))).map fun t => c.getD t 0) m.1 "M"] at hc0
      exact Option.map_eq_some_iff.mp hc0
    rw [List.length_map]
    calc _ < (List.range (last.2.1.shape.1 * last.2.1.shape.2)).length := by
          rw [← List.countP_eq_length_filter]
          rcases Nat.lt_or_eq_of_le (List.countP_le_length (p := fun t => decide (Within o.xlim.1 o.xlim.2 (val m.1 "X" t) ∧ Within o.ylim.1 o.ylim.2 (val m.1 "Y" t)))
            (l := List.range (last.2.1.shape.1 * last.2.1.shape.2))) with hl | hl
          · exact hl
          · exact absurd (of_decide_eq_true (List.countP_eq_length.mp hl t (List.mem_range.mpr ht))) hout
      _ = _ := List.length_range
  refine ⟨?_, gmxWrite_mismatch F hmc hlt.ne⟩
  intro hcons
  have := hcons _ (lookup_mem hmc)
  simp only at this
  omega

/-- **C56, read back.** The file written for a group of maps with full information, read again, has the information of the last map (to six decimals) and in
each bin with averaged mass the average of the group in single precision. -/
theorem C56_read_back_partial (F : F32) (edges : Flow → Except Err (Option ℚ × Option ℚ)) (o : Opts) (ho : Plain o) (m : Map) (ms : List Map)
    (hmod : ∀ m' ∈ ms, m'.2.2 = m.2.2) (nx ny num : ℕ) (dx dy x0 y0 : ℚ)
    (hlast : ((m :: ms).getLastD m).2.1 = ⟨(nx, ny), (some dx, some dy), some (x0, y0), num⟩)
    (h : ∀ m' ∈ m :: ms, HasFields m'.1 (nx * ny)) (hc : ∀ m' ∈ ms, Close (1 / 1000) (1 / 100000) (nx * ny) m.1 m'.1)
    (hs : nx ≤ 2 ^ 64 ∧ ny ≤ 2 ^ 64)
    (hn : 29 ≤ ((List.range (nx * ny)).filter fun t => decide (((m :: ms).map fun m' => val m'.1 "M" t).sum ≠ 0)).length) :
    ∃ avg info bytes out info', averageGroup edges o (m :: ms) = .ok (avg, info) ∧ gmxWrite F avg info = (some bytes, .ok ()) ∧
      Gmx.readData F bytes = .ok (out, info') ∧ info'.shape = some ((nx : ℤ), (ny : ℤ)) ∧
      info'.spacing = some (PyText.round6 dx, PyText.round6 dy) ∧ info'.origin = some (PyText.round6 x0, PyText.round6 y0) ∧
      ∀ t, t < nx * ny → ∀ l ∈ ["N", "T", "M", "U", "V"], val out l t = if val avg "M" t ≠ 0 then F.rnd (val avg l t) else 0 := by
  obtain ⟨avg, h1, h2, h3, h4⟩ := C56_content edges o ho m ms (nx * ny) hmod h hc
  rw [hlast] at h1
  have hW : Gmx.Writable avg ⟨(nx, ny), (dx, dy), (x0, y0)⟩ := by
    intro l hl
    have hl' : l ∈ names avg := by
      rw [h2]
      simp only [List.mem_cons, List.not_mem_nil, or_false] at hl ⊢
      tauto
    obtain ⟨c, hcol⟩ := (col?_isSome_iff avg l).mpr hl'
    exact ⟨c, hcol, h3 _ (lookup_mem hcol)⟩
  have hmass : Gmx.massRows avg ⟨(nx, ny), (dx, dy), (x0, y0)⟩ =
      (List.range (nx * ny)).filter fun t => decide (((m :: ms).map fun m' => val m'.1 "M" t).sum ≠ 0) := by
    unfold Gmx.massRows
    refine List.filter_congr fun t ht => ?_
    have := (h4 t (List.mem_range.mp ht)).2.2.1 "M" (by simp)
    simp only [decide_eq_decide]
    rw [this]
    have hpos : ((ms.length : ℚ) + 1) ≠ 0 := by positivity
    rw [ne_eq, ne_eq, div_eq_zero_iff]
    tauto
  obtain ⟨bytes, out, info', hw, hr, e1, e2, e3, e4, -, -, hv⟩ := Gmx.C47_round_trip_partial F avg ⟨(nx, ny), (dx, dy), (x0, y0)⟩ hW hs
    (Or.inr (Or.inl (by rw [hmass]; exact hn)))
  refine ⟨avg, _, bytes, out, info', h1, ?_, hr, e1, e2, e3, ?_⟩
  · unfold gmxWrite
    simp only [Option.getD_some]
    rw [hw]
    rfl
  · intro t ht l hl
    exact (hv t ht).2.2 l hl

/-! ### Examples -/

/-- A reader and a writer that keep maps as they are. -/
def keep (d : Record) (i : DInfo) : Option Map × Except Err Unit := (some (d, i, 0), .ok ())

def exInfo : DInfo := ⟨(2, 1), (some 1, some 1), some (0, 0), 2⟩

def exFs : FS Map := [((".".toList, "a00001".toList), (mapA, exInfo, 0)), ((".".toList, "a00002".toList), (mapB, exInfo, 0)),
  ((".".toList, "a00003".toList), (mapA, exInfo, 0)), ((".".toList, "b00001".toList), (mapC, exInfo, 0))]

def exAvg : Record := [("X", [0, 1]), ("Y", [0, 0]), ("M", [4, 0]), ("N", [2, 0]), ("U", [5 / 2, 0]), ("V", [1 / 2, 0]), ("T", [150, 0])]

example : averageGroup (fun _ => .ok (none, none)) {} [(mapA, exInfo, 0), (mapB, exInfo, 0)] = .ok (exAvg, exInfo) := by decide +kernel

/-- The hypotheses of `C56_series_partial` and its conclusion for a group of two. -/
example : Complete ["a00001".toList, "a00002".toList, "a00003".toList] "a".toList [] 1 none 2 false 0 ∧
    ¬ Complete ["a00001".toList, "a00002".toList, "a00003".toList] "a".toList [] 1 none 2 false 1 := by
  refine ⟨?_, ?_⟩
  · intro j hj
    interval_cases j
    · exact ⟨by decide +kernel, by simp⟩
    · exact ⟨by decide +kernel, by simp⟩
  · intro h
    exact absurd (h 1 (by omega)).1 (by decide +kernel)

example : ReadsAs (γ := Map) .ok exFs (groupFiles "a".toList [] 1 2 false 0) [(mapA, exInfo, 0), (mapB, exInfo, 0)] := by
  refine List.Forall₂.cons ⟨_, ?_, rfl⟩ (List.Forall₂.cons ⟨_, ?_, rfl⟩ List.Forall₂.nil) <;> decide +kernel

example : (average (γ := Map) .ok keep (fun _ => .ok (none, none)) {} exFs ["a00001".toList, "a00002".toList, "a00003".toList] "a".toList
    "b".toList [] none 2 false 1 none).1.get? (".".toList, "b00001".toList) = some (exAvg, exInfo, 0) ∧
    (average (γ := Map) .ok keep (fun _ => .ok (none, none)) {} exFs ["a00001".toList, "a00002".toList, "a00003".toList] "a".toList
    "b".toList [] none 2 false 1 none).2 = .ok () ∧
    (average (γ := Map) .ok keep (fun _ => .ok (none, none)) { quiet := true } exFs ["a00001".toList, "a00002".toList, "a00003".toList] "a".toList
    "b".toList [] none 2 false 1 none).2 = .error .unboundLocalError := by
  refine ⟨?_, ?_, ?_⟩ <;> decide +kernel

/-- Combining, cutting and supersampling that reach the writer. -/
example : (∃ d i, averageGroup (fun _ => .ok (none, none)) { combine := some (2, 1) } [(mapA, exInfo, 0), (mapB, exInfo, 0)] = .ok (d, i)) ∧
    (∃ d i, averageGroup (fun _ => .ok (none, none)) { xlim := (some (1 / 2), none) } [(mapA, exInfo, 0), (mapB, exInfo, 0)] = .ok (d, i)) ∧
    ∃ d i, averageGroup (fun _ => .ok (none, none)) { supersample := some 2 } [(mapA, exInfo, 0), (mapB, exInfo, 0)] = .ok (d, i) := by
  refine ⟨⟨[("X", [1 / 2]), ("Y", [0]), ("N", [2]), ("M", [4]), ("T", [150]), ("U", [5 / 2]), ("V", [1 / 2])], exInfo, by decide +kernel⟩,
    ⟨[("X", [1]), ("Y", [0]), ("M", [0]), ("N", [0]), ("U", [0]), ("V", [0]), ("T", [0])], exInfo, by decide +kernel⟩, ?_⟩
  have : ∃ x, averageGroup (fun _ => .ok (none, none)) { supersample := some 2 } [(mapA, exInfo, 0), (mapB, exInfo, 0)] = .ok x := by
    have h : (averageGroup (fun _ => .ok (none, none)) { supersample := some 2 } [(mapA, exInfo, 0), (mapB, exInfo, 0)]).isOk = true := by decide +kernel
    cases hx : averageGroup (fun _ => .ok (none, none)) { supersample := some 2 } [(mapA, exInfo, 0), (mapB, exInfo, 0)] with
    | ok x => exact ⟨x, rfl⟩
    | error e => rw [hx] at h; cases h
  obtain ⟨⟨d, i⟩, h⟩ := this
  exact ⟨d, i, h⟩

/-- A map of 29 bins in a row. -/
def exBig : Map := ([("X", (List.range 29).map fun t : ℕ => (t : ℚ)), ("Y", List.replicate 29 0), ("N", List.replicate 29 1), ("T", List.replicate 29 300),
  ("M", List.replicate 29 2), ("U", List.replicate 29 1), ("V", List.replicate 29 0)], ⟨(29, 1), (some 1, some 1), some (0, 0), 29⟩, 1)

/-- A group of two maps of 29 bins meets the hypotheses of `C56_read_back_partial` (and of `C56_content`, `C57_plain_partial`). -/
example : ([exBig, exBig].getLastD exBig).2.1 = ⟨(29, 1), (some 1, some 1), some (0, 0), 29⟩ ∧ (∀ m' ∈ [exBig, exBig], HasFields m'.1 (29 * 1)) ∧
    (∀ m' ∈ [exBig], Close (1 / 1000) (1 / 100000) (29 * 1) exBig.1 m'.1) ∧
    29 ≤ ((List.range (29 * 1)).filter fun t => decide (([exBig, exBig].map fun m' => val m'.1 "M" t).sum ≠ 0)).length := by
  refine ⟨rfl, ?_, ?_, by decide +kernel⟩
  · intro m' hm'
    simp only [List.mem_cons, List.not_mem_nil, or_false, or_self] at hm'
    subst hm'
    exact hasFields_of _ _ (by decide +kernel)
  · intro m' hm'
    simp only [List.mem_cons, List.not_mem_nil, or_false] at hm'
    subst hm'
    intro l _ t _
    rw [sub_self, abs_zero]
    positivity

end Strata.Driver
