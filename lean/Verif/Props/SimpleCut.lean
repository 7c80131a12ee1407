import Verif.Props.Simple
import Verif.Props.Flow
import Verif.Model.SpreadingFiles
/-!
# Simple binary maps that are cut short: C165

The format has no length: the reader takes the values that are there, deals them out to the seven columns and finds the shape of the map from the
coordinates.
-/
namespace Strata.Simple
open Strata Strata.Flow Strata.Average Strata.Bytes Strata.PyText Strata.Files Strata.Resample Strata.Gmx

/-! ## The shape that is found, for any coordinates -/

theorem takeWhile_sorted (p : ℚ → Bool) (hp : ∀ a b, a ≤ b → p b = true → p a = true) : ∀ l : List ℚ, l.Pairwise (· ≤ ·) → (l.takeWhile p).length = l.countP p := by
  intro l
  induction l with
  | nil => intro _; rfl
  | cons a l ih =>
    intro h
    rw [List.pairwise_cons] at h
    by_cases ha : p a = true
    · rw [List.takeWhile_cons_of_pos ha, List.countP_cons_of_pos ha, List.length_cons, ih h.2]
    · rw [List.takeWhile_cons_of_neg ha, List.countP_cons_of_neg ha]
      symm
      rw [List.length_nil, List.countP_eq_zero]
      intro b hb hpb
      exact ha (hp a b (h.1 b hb) hpb)

theorem takeWhile_near (a : ℚ) : ∀ l : List ℚ, (∀ b ∈ l, a ≤ b) → l.Pairwise (· ≤ ·) →
    (l.takeWhile fun y => decide (|y - a| < 1 / 10000)).length = l.countP fun y => decide (y - a < 1 / 10000) := by
  intro l hl hs
  rw [← takeWhile_sorted (fun y => decide (y - a < 1 / 10000)) (by intro x y hxy h; simp only [decide_eq_true_eq] at h ⊢; linarith) l hs]
  clear hs
  induction l with
  | nil => rfl
  | cons b l ih =>
    have hb : (|b - a| < 1 / 10000) ↔ (b - a < 1 / 10000) := by
      rw [abs_of_nonneg (by linarith [hl b (List.mem_cons_self ..)])]
    by_cases h : b - a < 1 / 10000
    · rw [List.takeWhile_cons_of_pos (by simpa using hb.mpr h), List.takeWhile_cons_of_pos (by simpa using h), List.length_cons, List.length_cons,
        ih fun c hc => hl c (List.mem_cons_of_mem _ hc)]
    · rw [List.takeWhile_cons_of_neg (by rw [decide_eq_true_eq]; exact fun h' => h (hb.mp h')), List.takeWhile_cons_of_neg (by simpa using h)]

/-- The number of columns that is found is the number of values of Y that are within 0.0001 of the lowest one. -/
theorem calcShape_count (X Y : List ℚ) (hlen : X.length = Y.length) (y0 : ℚ) (hmem : y0 ∈ Y) (hmin : ∀ y ∈ Y, y0 ≤ y) :
    calcShape X Y = .ok (Y.countP fun y => decide (y - y0 < 1 / 10000), X.length / Y.countP fun y => decide (y - y0 < 1 / 10000)) := by
  obtain ⟨s, c', hs, hc, hp, hsort⟩ := sorted_col (r := [("X", X), ("Y", Y)]) (l := "Y") (l' := "X") (c := Y) (by simp [names]) (by simp [names]) rfl
    (by simp [size, hlen])
  unfold calcShape
  rw [hs]
  simp only [ok_bind]
  rw [hc, Option.getD_some]
  cases c' with
  | nil => exact absurd (hp.mem_iff.mpr hmem) (by simp)
  | cons a ys =>
    have ha : a = y0 := by
      apply le_antisymm
      · rcases List.mem_cons.mp (hp.mem_iff.mpr hmem) with h | h
        · exact h.symm.le
        · exact (List.pairwise_cons.mp hsort).1 _ h
      · exact hmin a (hp.mem_iff.mp (List.mem_cons_self ..))
    subst ha
    simp only
    have h1 : (ys.takeWhile fun y => decide (|y - a| < 1 / 10000)).length = ys.countP fun y => decide (y - a < 1 / 10000) := by
      rw [takeWhile_near a ys (List.pairwise_cons.mp hsort).1 (List.pairwise_cons.mp hsort).2]
    have h2 : Y.countP (fun y => decide (y - a < 1 / 10000)) = 1 + ys.countP fun y => decide (y - a < 1 / 10000) := by
      rw [← hp.countP_eq, List.countP_cons_of_pos (by norm_num), Nat.add_comm]
    rw [h1, h2]

theorem count_multiples (ny s : ℕ) (hs : 0 < s) (hsn : s ≤ ny) : ∀ m : ℕ, ((List.range (m * ny + s)).countP fun t => decide (t % ny = 0)) = m + 1 := by
  have base : ∀ s : ℕ, 0 < s → s ≤ ny → ((List.range s).countP fun t => decide (t % ny = 0)) = 1 := by
    intro s hs hsn
    obtain ⟨k, rfl⟩ : ∃ k, s = k + 1 := ⟨s - 1, by omega⟩
    rw [List.range_succ_eq_map, List.countP_cons_of_pos (by simp), List.countP_map]
    have : List.countP ((fun t => decide (t % ny = 0)) ∘ Nat.succ) (List.range k) = 0 := by
      rw [List.countP_eq_zero]
      intro t ht
      have := List.mem_range.mp ht
      simp only [Function.comp_apply, decide_eq_true_eq]
      rw [Nat.mod_eq_of_lt (by omega)]
      omega
    rw [this]
  intro m
  induction m with
  | zero => rw [Nat.zero_mul, Nat.zero_add]; exact base s hs hsn
  | succ m ih =>
    rw [show (m + 1) * ny + s = ny + (m * ny + s) by ring, List.range_add, List.countP_append, base ny (by omega) le_rfl, List.countP_map]
    have : ((fun t => decide (t % ny = 0)) ∘ fun x => ny + x) = fun t => decide (t % ny = 0) := by
      funext t
      simp
    rw [this, ih]
    omega

/-! ## The bytes -/

theorem take_flatMap {α : Type} (f : α → Bytes) (w : ℕ) : ∀ (L : List α) (k : ℕ), (∀ a ∈ L, (f a).length = w) → (L.flatMap f).take (k * w) = (L.take k).flatMap f := by
  intro L
  induction L with
  | nil => intro k _; simp
  | cons a L ih =>
    intro k h
    cases k with
    | zero => simp
    | succ k =>
      have ha := h a (List.mem_cons_self ..)
      rw [List.flatMap_cons, List.take_succ_cons, List.flatMap_cons, List.take_append, List.take_of_length_le (by rw [ha]; nlinarith), ha,
        show (k + 1) * w - w = k * w by rw [Nat.succ_mul, Nat.add_sub_cancel], ih k fun b hb => h b (List.mem_cons_of_mem _ hb)]

/-- What is written for a map on a grid: its rows. -/
theorem writeBinary_rows (F : F32) (r : Record) (sp : ℚ × ℚ) (x0 y0 : ℚ) (nx ny : ℕ) (h : XMajor r sp x0 y0 nx ny) :
    writeBinary F (.dict r) = .ok ((((List.range (nx * ny)).map fun t => fields.map fun l => val r l t)).flatMap fun row => row.flatMap F.enc) := by
  unfold writeBinary
  rw [saveData_dict r _ h.cols, ok_bind, rowsOf_cols]

theorem length_row (F : F32) (row : List ℚ) (h : row.length = 7) : (row.flatMap F.enc).length = 28 := by
  rw [length_flatMap_const F.enc 4 row fun _ _ => F.len _, h]

/-- The first `k` rows of the file. -/
theorem take_rows (F : F32) (r : Record) (n k : ℕ) (hk : k ≤ n) :
    ((((List.range n).map fun t => fields.map fun l => val r l t)).flatMap fun row => row.flatMap F.enc).take (28 * k) =
      (((List.range k).map fun t => fields.map fun l => val r l t)).flatMap fun row => row.flatMap F.enc := by
  rw [Nat.mul_comm, take_flatMap _ 28]
  · rw [← List.map_take, List.take_range, Nat.min_eq_left hk]
  · intro row hr
    obtain ⟨t, _, rfl⟩ := List.mem_map.mp hr
    exact length_row F _ (by simp [fields])

/-! ## C165 -/

/-- **C165 is false, whole columns.** The first columns of a map, at least two of them, are a map to the reader: with the rest of the file cut off
just there, the file is read without an error as the smaller map. -/
theorem C165_whole_columns_accepted (F : F32) (r : Record) (sp : ℚ × ℚ) (x0 y0 : ℚ) (nx ny m : ℕ) (h : XMajor r sp x0 y0 nx ny) (hm : 2 ≤ m) (hmn : m ≤ nx)
    (hny : 2 ≤ ny) (ε : ℚ) (hx : ∀ i, i < m → |round5 (F.rnd (x0 + sp.1 * (i : ℚ))) - (x0 + sp.1 * (i : ℚ))| ≤ ε)
    (hy : ∀ j, j < ny → |round5 (F.rnd (y0 + sp.2 * (j : ℚ))) - (y0 + sp.2 * (j : ℚ))| ≤ ε) (hdx : 2 * ε ≤ sp.1) (hdy : 2 * ε + 1 / 10000 ≤ sp.2)
    (hbin : ∀ bytes, writeBinary F (.dict r) = .ok bytes → isBinary (bytes.take (28 * (m * ny))) = true) :
    ∃ bytes out info, writeBinary F (.dict r) = .ok bytes ∧ bytes.length = 28 * (nx * ny) ∧ readData F (bytes.take (28 * (m * ny))) = .ok (out, info) ∧
      info.shape = (m, ny) ∧ info.numBins = m * ny ∧ out.x.length = m * ny ∧ out.y.length = m * ny ∧
      names out.rest = ["N", "T", "M", "U", "V"] ∧ (∀ c ∈ out.rest, c.2.length = m * ny) ∧
      ∀ t, t < m * ny → (∃ x, out.x.getD t none = some x ∧ |x - val r "X" t| ≤ ε) ∧ (∃ y, out.y.getD t none = some y ∧ |y - val r "Y" t| ≤ ε) ∧
        ∀ l ∈ ["N", "T", "M", "U", "V"], val out.rest l t = F.rnd (val r l t) := by
  have hk : m * ny ≤ nx * ny := Nat.mul_le_mul_right _ hmn
  have hw := writeBinary_rows F r sp x0 y0 nx ny h
  have hcol : ∀ l, col? (r.map fun c => (c.1, c.2.take (m * ny))) l = (col? r l).map fun c => c.take (m * ny) := by
    intro l
    unfold col?
    clear h hw hbin
    induction r with
    | nil => rfl
    | cons c r ih =>
      rw [List.map_cons, List.lookup_cons, List.lookup_cons]
      cases l == c.1 with
      | true => rfl
      | false => exact ih
  have hval : ∀ l t, t < m * ny → val (r.map fun c => (c.1, c.2.take (m * ny))) l t = val r l t := by
    intro l t ht
    unfold val
    rw [hcol l]
    cases col? r l with
    | none => rfl
    | some c =>
      simp only [Option.map_some, Option.getD_some, List.getD_eq_getElem?_getD]
      rw [List.getElem?_take_of_lt ht]
  have h' : XMajor (r.map fun c => (c.1, c.2.take (m * ny))) sp x0 y0 m ny := by
    refine ⟨?_, ?_, ?_⟩
    · intro l hl
      obtain ⟨c, hc, hcl⟩ := h.cols l hl
      exact ⟨c.take (m * ny), by rw [hcol l, hc]; rfl, by rw [List.length_take, hcl, Nat.min_eq_left hk]⟩
    · intro t ht; rw [hval _ _ ht]; exact h.x t (by omega)
    · intro t ht; rw [hval _ _ ht]; exact h.y t (by omega)
  have hrows : ((List.range (m * ny)).map fun t => fields.map fun l => val (r.map fun c => (c.1, c.2.take (m * ny))) l t) =
      (List.range (m * ny)).map fun t => fields.map fun l => val r l t := by
    apply List.map_congr_left
    intro t ht
    apply List.map_congr_left
    intro l _
    exact hval l t (List.mem_range.mp ht)
  obtain ⟨out, info, hf, a1, a2, a3, a4, a5, a6, a7⟩ := roundTrip_aux F _ sp x0 y0 m ny h' hm hny F.rnd ε hx hy hdx hdy
  rw [hrows] at hf
  refine ⟨_, out, info, hw, ?_, ?_, a1, a2, a3, a4, a5, a6, ?_⟩
  · rw [length_flatMap_const _ 28]
    · rw [List.length_map, List.length_range, Nat.mul_comm]
    · intro row hr
      obtain ⟨t, _, rfl⟩ := List.mem_map.mp hr
      exact length_row F _ (by simp [fields])
  · unfold readData
    rw [if_pos (hbin _ hw), take_rows F r _ _ hk, readBinary_rows]
    · exact hf
    · intro row hr
      obtain ⟨t, _, rfl⟩ := List.mem_map.mp hr
      simp [fields]
  · intro t ht
    have := a7 t ht
    rw [hval _ _ ht, hval _ _ ht] at this
    refine ⟨this.1, this.2.1, ?_⟩
    intro l hl
    rw [this.2.2 l hl, hval _ _ ht]

/-- **What is read when the file ends within a column**, after `m` columns and `s` rows of the next one: `m + 1` columns, of as many rows as there are
rows in the file for each; the fields keep a value for each row of the file.  The rows are put one after the other into the columns of the new height:
from the first row of the second column on they are in the wrong places. -/
theorem C165_part_of_a_column (F : F32) (r : Record) (sp : ℚ × ℚ) (x0 y0 : ℚ) (nx ny m s : ℕ) (h : XMajor r sp x0 y0 nx ny) (hm : 1 ≤ m) (hmn : m < nx)
    (hs : 0 < s) (hsn : s < ny) (ε : ℚ) (hy : ∀ j, j < ny → |round5 (F.rnd (y0 + sp.2 * (j : ℚ))) - (y0 + sp.2 * (j : ℚ))| ≤ ε)
    (hdy : 2 * ε + 1 / 10000 ≤ sp.2)
    (hbin : ∀ bytes, writeBinary F (.dict r) = .ok bytes → isBinary (bytes.take (28 * (m * ny + s))) = true) :
    ∃ bytes out info, writeBinary F (.dict r) = .ok bytes ∧ readData F (bytes.take (28 * (m * ny + s))) = .ok (out, info) ∧
      info.shape = (m + 1, (m * ny + s) / (m + 1)) ∧ out.x.length = (m + 1) * ((m * ny + s) / (m + 1)) ∧ out.y.length = (m + 1) * ((m * ny + s) / (m + 1)) ∧
      names out.rest = ["N", "T", "M", "U", "V"] ∧ (∀ c ∈ out.rest, c.2.length = m * ny + s) ∧
      (m * ny + s) / (m + 1) < out.y.length ∧
      ∀ y, out.y.getD ((m * ny + s) / (m + 1)) none = some y → sp.2 - ε ≤ |y - val r "Y" ((m * ny + s) / (m + 1))| := by
  have hε : 0 ≤ ε := le_trans (abs_nonneg _) (hy 0 (by omega))
  have hk : m * ny + s ≤ nx * ny := by
    have : (m + 1) * ny ≤ nx * ny := Nat.mul_le_mul_right _ hmn
    nlinarith
  have hw := writeBinary_rows F r sp x0 y0 nx ny h
  have hny : 2 ≤ ny := by omega
  generalize hK : m * ny + s = k at *
  have hkm : m + 1 ≤ k := by nlinarith
  have hq0 : 0 < k / (m + 1) := Nat.div_pos hkm (by omega)
  have hq : k / (m + 1) < ny := by
    rw [Nat.div_lt_iff_lt_mul (by omega)]
    nlinarith
  -- the coordinates as the reader has them
  have hX : ((List.range k).map fun t => F.rnd (val r "X" t)).map round5 = (List.range k).map fun t => round5 (F.rnd (val r "X" t)) := by rw [List.map_map]; rfl
  have hY : ((List.range k).map fun t => F.rnd (val r "Y" t)).map round5 = (List.range k).map fun t => round5 (F.rnd (y0 + sp.2 * ((t % ny : ℕ) : ℚ))) := by
    rw [List.map_map]
    apply List.map_congr_left
    intro t ht
    have := List.mem_range.mp ht
    simp only [Function.comp_apply]
    rw [h.y t (by omega)]
  have hyn : ∀ t : ℕ, |round5 (F.rnd (y0 + sp.2 * ((t % ny : ℕ) : ℚ))) - (y0 + sp.2 * ((t % ny : ℕ) : ℚ))| ≤ ε := fun t => hy _ (Nat.mod_lt _ (by omega))
  have hy00 := abs_le.mp (hy 0 (by omega))
  have hgap : ∀ t : ℕ, t % ny ≠ 0 → 1 / 10000 ≤ round5 (F.rnd (y0 + sp.2 * ((t % ny : ℕ) : ℚ))) - round5 (F.rnd (y0 + sp.2 * ((0 : ℕ) : ℚ))) := by
    intro t ht
    have h1 := abs_le.mp (hyn t)
    have h2 : (1 : ℚ) ≤ ((t % ny : ℕ) : ℚ) := by exact_mod_cast Nat.one_le_iff_ne_zero.mpr ht
    push_cast at h1 hy00 ⊢
    nlinarith
  have hcount : ((List.range k).map fun t => round5 (F.rnd (y0 + sp.2 * ((t % ny : ℕ) : ℚ)))).countP
      (fun y => decide (y - round5 (F.rnd (y0 + sp.2 * ((0 : ℕ) : ℚ))) < 1 / 10000)) = m + 1 := by
    rw [List.countP_map, ← count_multiples ny s hs hsn.le m, hK]
    apply List.countP_congr
    intro t _
    simp only [Function.comp_apply, decide_eq_true_eq]
    constructor
    · intro hlt
      by_contra hne
      exact absurd hlt (not_lt.mpr (hgap t hne))
    · intro he
      rw [he]
      norm_num
  have hmem : round5 (F.rnd (y0 + sp.2 * ((0 : ℕ) : ℚ))) ∈ (List.range k).map fun t => round5 (F.rnd (y0 + sp.2 * ((t % ny : ℕ) : ℚ))) :=
    List.mem_map.mpr ⟨0, List.mem_range.mpr (by omega), by rw [Nat.zero_mod]⟩
  have hmin : ∀ y ∈ (List.range k).map fun t => round5 (F.rnd (y0 + sp.2 * ((t % ny : ℕ) : ℚ))), round5 (F.rnd (y0 + sp.2 * ((0 : ℕ) : ℚ))) ≤ y := by
    intro y hym
    obtain ⟨t, _, rfl⟩ := List.mem_map.mp hym
    by_cases ht : t % ny = 0
    · rw [ht]
    · exact sub_nonneg.mp (le_trans (by norm_num) (hgap t ht))
  have hshape := calcShape_count ((List.range k).map fun t => round5 (F.rnd (val r "X" t))) _ (by simp) _ hmem hmin
  rw [hcount, List.length_map, List.length_range] at hshape
  have hminY : npMin ((List.range k).map fun t => round5 (F.rnd (y0 + sp.2 * ((t % ny : ℕ) : ℚ)))) = .ok (round5 (F.rnd (y0 + sp.2 * ((0 : ℕ) : ℚ)))) := by
    rw [npMin_ok_iff]; exact ⟨hmem, hmin⟩
  obtain ⟨ymax, hmaxY⟩ := npMax_exists (List.ne_nil_of_mem hmem)
  have hXne : ((List.range k).map fun t => round5 (F.rnd (val r "X" t))) ≠ [] := by simp; omega
  obtain ⟨xmin, hminX⟩ := npMin_exists hXne
  obtain ⟨xmax, hmaxX⟩ := npMax_exists hXne
  have hinfo : ∃ dx dy, calcInformation ((List.range k).map fun t => round5 (F.rnd (val r "X" t)))
      ((List.range k).map fun t => round5 (F.rnd (y0 + sp.2 * ((t % ny : ℕ) : ℚ)))) =
      .ok ⟨(m + 1, k / (m + 1)), (dx, dy), (xmin, round5 (F.rnd (y0 + sp.2 * ((0 : ℕ) : ℚ)))), (m + 1) * (k / (m + 1))⟩ := by
    unfold calcInformation
    rw [if_neg (by simp), hshape]
    simp only [ok_bind, calc1d, hminX, hmaxX, hminY, hmaxY]
    exact ⟨_, _, rfl⟩
  obtain ⟨dx, dy, hinfo⟩ := hinfo
  have hread : readBinary F (((((List.range (nx * ny)).map fun t => fields.map fun l => val r l t)).flatMap fun row => row.flatMap F.enc).take (28 * k)) =
      fields.map fun l => (l, (List.range k).map fun t => F.rnd (val r l t)) := by
    rw [take_rows F r _ _ hk, readBinary_rows]
    · simp only [List.map_map]; rfl
    · intro row hr
      obtain ⟨t, _, rfl⟩ := List.mem_map.mp hr
      simp [fields]
  have hfin : finish (fields.map fun l => (l, (List.range k).map fun t => F.rnd (val r l t))) =
      .ok (⟨(List.range ((m + 1) * (k / (m + 1)))).map fun t => dx.map fun d => xmin + d * ((t / (k / (m + 1)) : ℕ) : ℚ),
        (List.range ((m + 1) * (k / (m + 1)))).map fun t => dy.map fun d => round5 (F.rnd (y0 + sp.2 * ((0 : ℕ) : ℚ))) + d * ((t % (k / (m + 1)) : ℕ) : ℚ),
        ["N", "T", "M", "U", "V"].map fun l => (l, (List.range k).map fun t => F.rnd (val r l t))⟩,
        ⟨(m + 1, k / (m + 1)), (dx, dy), (xmin, round5 (F.rnd (y0 + sp.2 * ((0 : ℕ) : ℚ)))), (m + 1) * (k / (m + 1))⟩) := by
    unfold finish
    have e1 : col? (fields.map fun l => (l, (List.range k).map fun t => F.rnd (val r l t))) "X" = some ((List.range k).map fun t => F.rnd (val r "X" t)) := rfl
    have e2 : col? (fields.map fun l => (l, (List.range k).map fun t => F.rnd (val r l t))) "Y" = some ((List.range k).map fun t => F.rnd (val r "Y" t)) := rfl
    have e3 : ((fields.map fun l => (l, (List.range k).map fun t => F.rnd (val r l t))).filter fun c => decide (c.1 ∉ ["X", "Y"])) =
        ["N", "T", "M", "U", "V"].map fun l => (l, (List.range k).map fun t => F.rnd (val r l t)) := by
      rw [map_filter_names fields (fun l => (List.range k).map fun t => F.rnd (val r l t)) (fun l => decide (l ∉ ["X", "Y"]))]
      rfl
    rw [e1, e2]
    simp only [Option.elim_some, ok_bind]
    rw [hX, hY, hinfo, e3]
    simp only [ok_bind]
  have hres := hbin _ hw
  refine ⟨_, _, _, hw, (by unfold readData; rw [if_pos hres, hread, hfin]), rfl, ?_, ?_, ?_, ?_, ?_, ?_⟩
  · exact (List.length_map _).trans List.length_range
  · exact (List.length_map _).trans List.length_range
  · rfl
  · intro c hc
    obtain ⟨l, _, rfl⟩ := List.mem_map.mp hc
    exact (List.length_map _).trans List.length_range
  · rw [List.length_map, List.length_range]; nlinarith
  · intro y hyv
    have hlt : k / (m + 1) < (m + 1) * (k / (m + 1)) := by nlinarith
    rw [List.getD_eq_getElem?_getD, List.getElem?_map, List.getElem?_range hlt] at hyv
    simp only [Option.map_some, Option.getD_some, Nat.mod_self] at hyv
    obtain ⟨d, _, rfl⟩ := Option.map_eq_some_iff.mp hyv
    have hlk : k / (m + 1) < k := Nat.div_lt_self (by omega) (by omega)
    rw [h.y _ (by omega), Nat.mod_eq_of_lt hq]
    have hq1 : (1 : ℚ) ≤ ((k / (m + 1) : ℕ) : ℚ) := by exact_mod_cast hq0
    rw [abs_sub_comm]
    refine le_trans ?_ (le_abs_self _)
    push_cast at hy00 hq1 ⊢
    nlinarith [hy00.2]

/-! ## What is refused -/

theorem length_mapM_id : ∀ (l : List (Option ℚ)) (x : List ℚ), l.mapM id = some x → x.length = l.length
  | [], x, h => by simp at h; subst h; rfl
  | a :: l, x, h => by
    rw [List.mapM_cons] at h
    cases a with
    | none => simp at h
    | some a =>
      cases hl : l.mapM id with
      | none => rw [hl] at h; simp at h
      | some y =>
        rw [hl] at h
        simp at h
        subst h
        rw [List.length_cons, List.length_cons, length_mapM_id l y hl]

/-- A map in a simple format one of whose fields has another number of values than the grid that was found is refused. -/
theorem readFlow_refused (F : F32) (content : Bytes) (hg : isGmx content = false) (out : Out) (info : SInfo) (hr : readData F content = .ok (out, info))
    (c : Label × List ℚ) (hc : c ∈ out.rest) (h1 : c.2.length ≠ out.x.length) (h2 : c.2.length ≠ 1) :
    SpreadingFiles.readFlow F content = .error .valueError := by
  unfold SpreadingFiles.readFlow Driver.readDataFile
  rw [if_neg (by rw [hg]; simp), hr]
  simp only [ok_bind]
  cases hx : out.x.mapM id with
  | none => rfl
  | some x =>
    cases hy : out.y.mapM id with
    | none => rfl
    | some y =>
      have hlx : x.length = out.x.length := by
        exact length_mapM_id _ _ hx
      simp only [Except.bind]
      unfold SpreadingFiles.flowOf
      simp only
      split
      · have := C09_mismatch_rejected_partial [.dict ([("X", x), ("Y", y)] ++ out.rest)] ("X", x) (("Y", y) :: out.rest) (by simp [collate, bind, Except.bind]) c
          (List.mem_cons_of_mem _ hc) (by simpa [hlx] using h1) h2
        unfold mk
        rw [this]
        rfl
      · rfl

/-- **C165, partial.** The file ends within a column, and the number of rows is no multiple of the number of columns begun: the map is refused.
Missing: for a multiple it is accepted, with values in the wrong places (`C165_part_of_a_column`). -/
theorem C165_part_of_a_column_partial (F : F32) (r : Record) (sp : ℚ × ℚ) (x0 y0 : ℚ) (nx ny m s : ℕ) (h : XMajor r sp x0 y0 nx ny) (hm : 1 ≤ m) (hmn : m < nx)
    (hs : 0 < s) (hsn : s < ny) (ε : ℚ) (hy : ∀ j, j < ny → |round5 (F.rnd (y0 + sp.2 * (j : ℚ))) - (y0 + sp.2 * (j : ℚ))| ≤ ε)
    (hdy : 2 * ε + 1 / 10000 ≤ sp.2) (hdvd : ¬ (m + 1) ∣ (m * ny + s))
    (hbin : ∀ bytes, writeBinary F (.dict r) = .ok bytes → isBinary (bytes.take (28 * (m * ny + s))) = true ∧ isGmx (bytes.take (28 * (m * ny + s))) = false) :
    ∃ bytes, writeBinary F (.dict r) = .ok bytes ∧ SpreadingFiles.readFlow F (bytes.take (28 * (m * ny + s))) = .error .valueError := by
  obtain ⟨bytes, out, info, a1, a2, a3, a4, a5, a6, a7, -⟩ := C165_part_of_a_column F r sp x0 y0 nx ny m s h hm hmn hs hsn ε hy hdy fun b hb => (hbin b hb).1
  refine ⟨bytes, a1, ?_⟩
  obtain ⟨c, hc⟩ : ∃ c, c ∈ out.rest := by
    cases hr : out.rest with
    | nil => rw [hr] at a6; simp [names] at a6
    | cons c _ => exact ⟨c, List.mem_cons_self ..⟩
  refine readFlow_refused F _ (hbin _ a1).2 out info a2 c hc ?_ ?_
  · rw [a7 c hc, a4]
    intro he
    exact hdvd ⟨_, he⟩
  · rw [a7 c hc]
    nlinarith

theorem length_pieces (w : ℕ) : ∀ (k : ℕ) (b : Bytes), (pieces w k b).length = k
  | 0, _ => rfl
  | k + 1, b => by rw [pieces, List.length_cons, length_pieces w k]

theorem length_stride (F : F32) (content : Bytes) (l : Label) (i : ℕ) (hl : (l, i) ∈ fields.zipIdx) :
    ∃ c, col? (readBinary F content) l = some c ∧ c.length = (content.length / 4 - i + 6) / 7 := by
  have hlen : ((fromFile 4 (content.length / 4) ⟨content, 0⟩).1.map F.dec).length = content.length / 4 := by
    rw [List.length_map]
    unfold fromFile
    simp only [Nat.sub_zero]
    rw [if_pos (by omega)]
    exact length_pieces 4 _ _
  unfold readBinary
  simp only
  generalize (fromFile 4 (content.length / 4) ⟨content, 0⟩).1.map F.dec = raw at hlen
  refine ⟨stride 0 i 7 raw, ?_, ?_⟩
  · simp only [fields, List.zipIdx_cons, List.zipIdx_nil, List.mem_cons, List.not_mem_nil, or_false, Prod.mk.injEq] at hl
    rcases hl with ⟨rfl, rfl⟩ | ⟨rfl, rfl⟩ | ⟨rfl, rfl⟩ | ⟨rfl, rfl⟩ | ⟨rfl, rfl⟩ | ⟨rfl, rfl⟩ | ⟨rfl, rfl⟩ <;> rfl
  · unfold stride
    rw [List.length_map, List.length_range, hlen]
    omega

/-- **C165.** A file that ends after the first value of a row, in the middle of its X and Y, is refused. -/
theorem C165_one_value_of_a_row (F : F32) (content : Bytes) (hb : isBinary content = true) (hg : isGmx content = false) (h : content.length / 4 % 7 = 1) :
    readData F content = .error .valueError ∧ SpreadingFiles.readFlow F content = .error .valueError := by
  have key : readData F content = .error .valueError := by
    obtain ⟨X, hX, lX⟩ := length_stride F content "X" 0 (by decide)
    obtain ⟨Y, hY, lY⟩ := length_stride F content "Y" 1 (by decide)
    unfold readData
    rw [if_pos hb]
    unfold finish
    rw [hX, hY]
    simp only [Option.elim_some, ok_bind]
    unfold calcInformation
    rw [if_pos (by rw [List.length_map, List.length_map, lX, lY]; omega)]
    rfl
  refine ⟨key, ?_⟩
  unfold SpreadingFiles.readFlow Driver.readDataFile
  rw [if_neg (by rw [hg]; simp), key]
  rfl

/-- **C165.** A file of two or more rows that ends after three to six of the seven values of a row is no map: the reader may accept it, the map is refused. -/
theorem C165_part_of_a_row (F : F32) (content : Bytes) (hb : isBinary content = true) (hg : isGmx content = false) (h : 3 ≤ content.length / 4 % 7)
    (h2 : 2 ≤ content.length / 28) (f : Flow) : SpreadingFiles.readFlow F content ≠ .ok f := by
  intro hf
  cases hr : readData F content with
  | error e =>
    unfold SpreadingFiles.readFlow Driver.readDataFile at hf
    rw [if_neg (by rw [hg]; simp), hr] at hf
    exact absurd hf (by simp [bind, Except.bind])
  | ok p =>
    obtain ⟨out, info⟩ := p
    have hrest : out.rest = (readBinary F content).filter fun c => decide (c.1 ∉ ["X", "Y"]) := by
      have hr' := hr
      unfold readData at hr'
      rw [if_pos hb] at hr'
      unfold finish at hr'
      obtain ⟨X, -, hr'⟩ := bind_eq_ok hr'
      obtain ⟨Y, -, hr'⟩ := bind_eq_ok hr'
      obtain ⟨i, -, hr'⟩ := bind_eq_ok hr'
      injection hr' with hr'
      have := (Prod.ext_iff.mp hr').1
      simp only at this
      rw [← this]
    have hmem : ∀ l i, (l, i) ∈ fields.zipIdx → l ∉ ["X", "Y"] → ∃ c, (l, c) ∈ out.rest ∧ c.length = (content.length / 4 - i + 6) / 7 := by
      intro l i hl hne
      obtain ⟨c, hc, lc⟩ := length_stride F content l i hl
      refine ⟨c, ?_, lc⟩
      rw [hrest, List.mem_filter]
      exact ⟨lookup_mem hc, by simpa using hne⟩
    obtain ⟨cn, hn, ln⟩ := hmem "N" 2 (by decide) (by decide)
    obtain ⟨cv, hv, lv⟩ := hmem "V" 6 (by decide) (by decide)
    have hbad : ∃ c ∈ out.rest, c.2.length ≠ out.x.length ∧ c.2.length ≠ 1 := by
      by_cases e : cn.length = out.x.length
      · refine ⟨_, hv, ?_, ?_⟩ <;> simp only <;> omega
      · refine ⟨_, hn, e, ?_⟩
        simp only
        omega
    obtain ⟨c, hc, e1, e2⟩ := hbad
    rw [readFlow_refused F content hg out info hr c hc e1 e2] at hf
    exact absurd hf (by simp)

theorem pieces_take (w : ℕ) : ∀ (k : ℕ) (b : Bytes), pieces w k (b.take (k * w)) = pieces w k b
  | 0, _ => rfl
  | k + 1, b => by
    rw [pieces, pieces, List.take_take, Nat.min_eq_left (by nlinarith), List.drop_take, show (k + 1) * w - w = k * w by rw [Nat.succ_mul, Nat.add_sub_cancel],
      pieces_take w k]

/-- **C165 is false, part of a value.** The bytes after the last complete value are not looked at: a file that ends within a value is read as the one
that ends before it. -/
theorem C165_part_of_a_value_ignored (F : F32) (content : Bytes) (hb : isBinary content = true) (hb' : isBinary (content.take (content.length / 4 * 4)) = true) :
    readData F content = readData F (content.take (content.length / 4 * 4)) := by
  have hl : (content.take (content.length / 4 * 4)).length = content.length / 4 * 4 := by rw [List.length_take]; omega
  have : readBinary F content = readBinary F (content.take (content.length / 4 * 4)) := by
    unfold readBinary fromFile
    simp only [Nat.sub_zero, List.drop_zero, hl]
    rw [Nat.mul_div_cancel _ (by norm_num), if_pos (by omega), if_pos le_rfl]
    simp only [pieces_take]
  unfold readData
  rw [if_pos hb, if_pos hb', this]

/-! ## Concrete maps -/

/-- A map of 3 × 5 bins, column after column. -/
def wide : Record := [("X", (List.range 15).map fun t => 1 / 4 + 1 / 2 * ((t / 5 : ℕ) : ℚ)), ("Y", (List.range 15).map fun t => 1 / 2 * ((t % 5 : ℕ) : ℚ)),
  ("N", List.replicate 15 2), ("T", List.replicate 15 300), ("M", (List.range 15).map fun t => (t : ℚ) + 1), ("U", List.replicate 15 (1 / 10)), ("V", List.replicate 15 (-1 / 10))]

theorem wide_xMajor : XMajor wide (1 / 2, 1 / 2) (1 / 4) 0 3 5 where
  cols l hl := by
    simp only [List.mem_cons, List.not_mem_nil, or_false] at hl
    rcases hl with rfl | rfl | rfl | rfl | rfl | rfl | rfl <;> exact ⟨_, rfl, by decide +kernel⟩
  x := by decide +kernel
  y := by decide +kernel

/-- The bytes of the map, cut after some of them. -/
def wideCut (n : ℕ) : Bytes := (((writeBinary ieee32 (.dict wide)).toOption).getD []).take n

theorem wide_bytes : ∀ bytes, writeBinary ieee32 (.dict wide) = .ok bytes → ∀ n, bytes.take n = wideCut n := by
  intro bytes hb n
  unfold wideCut
  rw [hb]
  rfl

/-- The map meets the hypotheses of the theorems above for cuts after 2 columns, after 7 rows and after 8 rows. -/
example : XMajor wide (1 / 2, 1 / 2) (1 / 4) 0 3 5 ∧
    (∀ i : ℕ, i < 2 → |round5 (ieee32.rnd (1 / 4 + 1 / 2 * (i : ℚ))) - (1 / 4 + 1 / 2 * (i : ℚ))| ≤ 0) ∧
    (∀ j : ℕ, j < 5 → |round5 (ieee32.rnd (0 + 1 / 2 * (j : ℚ))) - (0 + 1 / 2 * (j : ℚ))| ≤ 0) ∧
    (∀ bytes, writeBinary ieee32 (.dict wide) = .ok bytes → isBinary (bytes.take (28 * (2 * 5))) = true) ∧
    (∀ bytes, writeBinary ieee32 (.dict wide) = .ok bytes → isBinary (bytes.take (28 * (1 * 5 + 2))) = true ∧ isGmx (bytes.take (28 * (1 * 5 + 2))) = false) ∧
    ¬ (1 + 1) ∣ 1 * 5 + 2 ∧
    (∀ bytes, writeBinary ieee32 (.dict wide) = .ok bytes → isBinary (bytes.take (28 * (1 * 5 + 3))) = true) := by
  refine ⟨wide_xMajor, by decide +kernel, by decide +kernel, ?_, ?_, by decide, ?_⟩
  · intro b hb; rw [wide_bytes b hb]; decide +kernel
  · intro b hb; rw [wide_bytes b hb]; decide +kernel
  · intro b hb; rw [wide_bytes b hb]; decide +kernel

/-- Cuts within rows that meet the hypotheses of `C165_one_value_of_a_row` and `C165_part_of_a_row`. -/
example : (isBinary (wideCut 60) = true ∧ isGmx (wideCut 60) = false ∧ (wideCut 60).length / 4 % 7 = 1) ∧
    isBinary (wideCut 100) = true ∧ isGmx (wideCut 100) = false ∧ 3 ≤ (wideCut 100).length / 4 % 7 ∧ 2 ≤ (wideCut 100).length / 28 := by
  refine ⟨⟨?_, ?_, ?_⟩, ?_, ?_, ?_, ?_⟩ <;> decide +kernel

/-- A cut within a value that meets the hypotheses of `C165_part_of_a_value_ignored`. -/
example : isBinary (wideCut 283) = true ∧ (wideCut 283).length / 4 * 4 = 280 ∧ isBinary ((wideCut 283).take 280) = true := by
  refine ⟨?_, ?_, ?_⟩ <;> decide +kernel

theorem wide_read (n : ℕ) (sh : ℤ × ℤ) (t : ℕ) (v : ℚ × ℚ × ℚ)
    (h : ((SpreadingFiles.readFlow ieee32 (wideCut n)).toOption.map fun f => (f.info.shape, val f.data "X" t, val f.data "Y" t, val f.data "M" t)) = some (some sh, v))
    (hl : (wideCut 1000).length = 420) :
    ∃ bytes f, writeBinary ieee32 (.dict wide) = .ok bytes ∧ bytes.length = 420 ∧ SpreadingFiles.readFlow ieee32 (bytes.take n) = .ok f ∧ f.info.shape = some sh ∧
      (val f.data "X" t, val f.data "Y" t, val f.data "M" t) = v := by
  cases hw : writeBinary ieee32 (.dict wide) with
  | error e => unfold wideCut at hl; rw [hw] at hl; simp [Except.toOption] at hl
  | ok b =>
    cases hr : SpreadingFiles.readFlow ieee32 (wideCut n) with
    | error e => rw [hr] at h; simp [Except.toOption] at h
    | ok f =>
      rw [hr] at h
      simp only [Except.toOption, Option.map_some, Option.some.injEq, Prod.ext_iff] at h
      refine ⟨b, f, rfl, ?_, by rw [wide_bytes b hw]; exact hr, h.1, ?_⟩
      · rw [← wide_bytes b hw, List.length_take] at hl
        omega
      · exact Prod.ext_iff.mpr ⟨h.2.1, Prod.ext_iff.mpr h.2.2⟩

/-- **C165 is false, part of a column.** The first 8 of the 15 rows of a map of 3 × 5 bins are accepted as a map of 2 × 4 bins.  The mass 5 of the
bin at (0.25, 2) is now at (0.75, 0), where there was a mass of 6. -/
theorem C165_part_of_a_column_counterexample : ∃ bytes f, writeBinary ieee32 (.dict wide) = .ok bytes ∧ bytes.length = 420 ∧
    SpreadingFiles.readFlow ieee32 (bytes.take 224) = .ok f ∧ f.info.shape = some (2, 4) ∧
    (val wide "X" 4, val wide "Y" 4, val wide "M" 4) = (1 / 4, 2, 5) ∧ (val f.data "X" 4, val f.data "Y" 4, val f.data "M" 4) = (3 / 4, 0, 5) := by
  obtain ⟨b, f, a1, a2, a3, a4, a5⟩ := wide_read 224 (2, 4) 4 (3 / 4, 0, 5) (by decide +kernel) (by decide +kernel)
  exact ⟨b, f, a1, a2, a3, a4, by decide +kernel, a5⟩

/-- **C165 is false, two values of a row.** Cut after 2 values of the seventh row, the same map is accepted as a map of 2 × 3 bins. -/
theorem C165_two_values_counterexample : ∃ bytes f, writeBinary ieee32 (.dict wide) = .ok bytes ∧
    SpreadingFiles.readFlow ieee32 (bytes.take 176) = .ok f ∧ f.info.shape = some (2, 3) ∧
    (val wide "X" 3, val wide "Y" 3, val wide "M" 3) = (1 / 4, 3 / 2, 4) ∧ (val f.data "X" 3, val f.data "Y" 3, val f.data "M" 3) = (3 / 4, 0, 4) := by
  obtain ⟨b, f, a1, a2, a3, a4, a5⟩ := wide_read 176 (2, 3) 3 (3 / 4, 0, 4) (by decide +kernel) (by decide +kernel)
  exact ⟨b, f, a1, a3, a4, by decide +kernel, a5⟩

end Strata.Simple
