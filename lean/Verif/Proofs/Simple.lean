import Verif.Proofs.Utf8
import Verif.Proofs.GmxRead
import Verif.Proofs.Numeric
import Verif.Proofs.ResampleProps
/-! # Lemmas about the simple formats -/
namespace Strata.Simple
open Strata Strata.Flow Strata.Average Strata.Bytes Strata.PyText Strata.Files Strata.Resample Strata.Gmx

/-! ## Information from coordinates -/

theorem eq_map_getD (c : List ℚ) : c = (List.range c.length).map fun t => c.getD t 0 := by
  apply List.ext_getElem
  · simp
  · intro k h1 h2
    simp [List.getD_eq_getElem?_getD, h1]

theorem lexLE_head {a b : ℚ} {as bs : List ℚ} (h : lexLE (a :: as) (b :: bs) = true) : a ≤ b := by
  unfold lexLE at h
  split at h
  · rename_i h1; exact h1.le
  · split at h
    · simp at h
    · rename_i _ h2; exact not_lt.mp h2

theorem sorted_col {r : Record} {l l' : Label} {c : List ℚ} (hl : l ∈ names r) (hl' : l' ∈ names r) (hc : col? r l = some c) (hlen : c.length = size r) :
    ∃ s c', sortRecord r [l, l'] = .ok s ∧ col? s l = some c' ∧ c'.Perm c ∧ c'.Pairwise (· ≤ ·) := by
  have hp := argsort_perm r [l, l']
  refine ⟨gather (argsort r [l, l']) r, pick (argsort r [l, l']) c, ?_, ?_, ?_, ?_⟩
  · unfold sortRecord
    rw [if_pos]
    simp [hl, hl']
  · rw [col?_gather, hc]; rfl
  · unfold pick
    refine (hp.map _).trans ?_
    rw [← hlen]
    rw [← eq_map_getD]
  · unfold pick
    rw [List.pairwise_map]
    refine (argsort_sorted r [l, l']).imp ?_
    intro i j hij
    unfold keyAt sortKeys at hij
    simp only [List.cons_append, List.map_cons, hc, Option.getD_some] at hij
    exact lexLE_head hij

theorem takeWhile_range (n k : ℕ) (p : ℕ → Bool) (h1 : ∀ t, t < k → t < n → p t = true) (h2 : k < n → p k = false) :
    (((List.range n).map p).takeWhile id).length = min k n := by
  induction n generalizing k p with
  | zero => simp
  | succ n ih =>
    rw [List.range_succ_eq_map, List.map_cons, List.map_map]
    cases k with
    | zero => simp [h2 (by omega)]
    | succ k =>
      rw [List.takeWhile_cons, if_pos (by simpa using h1 0 (by omega) (by omega)), List.length_cons,
        ih k (p ∘ Nat.succ) (fun t a b => h1 (t + 1) (by omega) (by omega)) (fun a => h2 (by omega))]
      omega

/-- The shape found from the heights of the bins. -/
theorem calcShape_eq (X Y : List ℚ) (nx ny : ℕ) (yy : ℕ → ℚ) (hnx : 0 < nx) (hny : 0 < ny) (hX : X.length = nx * ny)
    (hY : Y.Perm ((List.range (nx * ny)).map fun t => yy (t / nx))) (hmono : ∀ i j, i ≤ j → j < ny → yy i ≤ yy j)
    (hstep : ∀ j, 0 < j → j < ny → 1 / 10000 ≤ yy j - yy 0) : calcShape X Y = .ok (nx, ny) := by
  have hlen : Y.length = nx * ny := by rw [hY.length_eq]; simp
  have hpos : 0 < nx * ny := Nat.mul_pos hnx hny
  obtain ⟨s, c', hs, hc, hp, hsort⟩ := sorted_col (r := [("X", X), ("Y", Y)]) (l := "Y") (l' := "X") (c := Y) (by simp [names]) (by simp [names]) rfl
    (by simp [size, hX, hlen])
  have hc' : c' = (List.range (nx * ny)).map fun t => yy (t / nx) := by
    refine List.Perm.eq_of_pairwise (fun a b _ _ => le_antisymm) hsort ?_ (hp.trans hY)
    rw [List.pairwise_map]
    refine List.Pairwise.imp_of_mem ?_ List.pairwise_lt_range
    intro i j _ hj hij
    exact hmono _ _ (Nat.div_le_div_right hij.le) (by rw [Nat.div_lt_iff_lt_mul hnx, Nat.mul_comm]; exact List.mem_range.mp hj)
  obtain ⟨m, hm⟩ : ∃ m, nx * ny = m + 1 := ⟨nx * ny - 1, by omega⟩
  unfold calcShape
  rw [hs]
  simp only [ok_bind]
  rw [hc, Option.getD_some, hc', hm, List.range_succ_eq_map, List.map_cons, List.map_map]
  simp only
  have h1 : ((List.map ((fun t => yy (t / nx)) ∘ Nat.succ) (List.range m)).takeWhile fun y => decide (|y - yy (0 / nx)| < 1 / 10000)).length = nx - 1 := by
    have : ((List.map ((fun t => yy (t / nx)) ∘ Nat.succ) (List.range m)).takeWhile fun y => decide (|y - yy (0 / nx)| < 1 / 10000)).length =
        (((List.range m).map fun t => decide (|yy ((t + 1) / nx) - yy 0| < 1 / 10000)).takeWhile id).length := by
      rw [List.takeWhile_map, List.takeWhile_map, List.length_map, List.length_map, Nat.zero_div]
      rfl
    rw [this, takeWhile_range m (nx - 1)]
    · have : nx ≤ nx * ny := Nat.le_mul_of_pos_right nx hny
      omega
    · intro t h1 h2
      rw [Nat.div_eq_of_lt (by omega)]
      norm_num
    · intro h
      rw [show nx - 1 + 1 = nx by omega, Nat.div_self hnx]
      have hny2 : 1 < ny := by
        by_contra hcon
        have : ny = 1 := by omega
        rw [this, Nat.mul_one] at hm
        omega
      have := hstep 1 (by omega) hny2
      rw [decide_eq_false_iff_not, not_lt]
      exact le_trans this (le_abs_self _)
  rw [h1, show 1 + (nx - 1) = nx by omega, hX, Nat.mul_div_cancel_left _ hnx]

theorem calc1d_eq (xs : List ℚ) (n : ℕ) (xx : ℕ → ℚ) (hn : 0 < n) (h : ∀ x ∈ xs, ∃ i < n, x = xx i) (hmono : ∀ i j, i ≤ j → j < n → xx i ≤ xx j)
    (h0 : xx 0 ∈ xs) (h1 : xx (n - 1) ∈ xs) :
    npMin xs = .ok (xx 0) ∧ calc1d xs n = .ok (if n = 1 then none else some ((xx (n - 1) - xx 0) / ((n : ℚ) - 1))) := by
  have hmin : npMin xs = .ok (xx 0) := by
    rw [npMin_ok_iff]
    refine ⟨h0, ?_⟩
    intro x hx
    obtain ⟨i, hi, rfl⟩ := h x hx
    exact hmono _ _ (Nat.zero_le _) hi
  have hmax : npMax xs = .ok (xx (n - 1)) := by
    rw [npMax_ok_iff]
    refine ⟨h1, ?_⟩
    intro x hx
    obtain ⟨i, hi, rfl⟩ := h x hx
    exact hmono _ _ (by omega) (by omega)
  refine ⟨hmin, ?_⟩
  unfold calc1d
  rw [hmin, hmax]
  rfl

/-- The information found for bins in columns at `xx i` and rows at `yy j`. -/
theorem calcInformation_eq (X Y : List ℚ) (nx ny : ℕ) (xx yy : ℕ → ℚ) (hnx : 0 < nx) (hny : 0 < ny)
    (hX : X.Perm ((List.range (nx * ny)).map fun t => xx (t % nx))) (hY : Y.Perm ((List.range (nx * ny)).map fun t => yy (t / nx)))
    (hxm : ∀ i j, i ≤ j → j < nx → xx i ≤ xx j) (hym : ∀ i j, i ≤ j → j < ny → yy i ≤ yy j)
    (hstep : ∀ j, 0 < j → j < ny → 1 / 10000 ≤ yy j - yy 0) :
    calcInformation X Y = .ok ⟨(nx, ny), (if nx = 1 then none else some ((xx (nx - 1) - xx 0) / ((nx : ℚ) - 1)),
      if ny = 1 then none else some ((yy (ny - 1) - yy 0) / ((ny : ℚ) - 1))), (xx 0, yy 0), nx * ny⟩ := by
  have hlX : X.length = nx * ny := by rw [hX.length_eq]; simp
  have hlY : Y.length = nx * ny := by rw [hY.length_eq]; simp
  have hin : ∀ i j, i < nx → j < ny → j * nx + i < nx * ny := fun i j hi hj => grid_lt hi hj
  have hx := calc1d_eq X nx xx hnx
    (fun x hx => by
      obtain ⟨t, _, rfl⟩ := List.mem_map.mp (hX.mem_iff.mp hx)
      exact ⟨t % nx, Nat.mod_lt _ hnx, rfl⟩) hxm
    (hX.mem_iff.mpr (List.mem_map.mpr ⟨0, List.mem_range.mpr (Nat.mul_pos hnx hny), by simp⟩))
    (hX.mem_iff.mpr (List.mem_map.mpr ⟨nx - 1, List.mem_range.mpr (by have := hin (nx - 1) 0 (by omega) hny; omega), by rw [Nat.mod_eq_of_lt (by omega)]⟩))
  have hy := calc1d_eq Y ny yy hny
    (fun y hy => by
      obtain ⟨t, ht, rfl⟩ := List.mem_map.mp (hY.mem_iff.mp hy)
      exact ⟨t / nx, by rw [Nat.div_lt_iff_lt_mul hnx, Nat.mul_comm]; exact List.mem_range.mp ht, rfl⟩) hym
    (hY.mem_iff.mpr (List.mem_map.mpr ⟨0, List.mem_range.mpr (Nat.mul_pos hnx hny), by simp⟩))
    (hY.mem_iff.mpr (List.mem_map.mpr ⟨(ny - 1) * nx, List.mem_range.mpr (by have := hin 0 (ny - 1) hnx (by omega); omega), by rw [Nat.mul_div_cancel _ hnx]⟩))
  unfold calcInformation
  rw [if_neg (by rw [hlX, hlY]; simp), calcShape_eq X Y nx ny yy hnx hny hlX hY hym hstep]
  simp only [ok_bind, hx.1, hx.2, hy.1, hy.2]

/-! ## Strided reading -/

theorem getD_flatten (w : ℕ) (d : ℚ) : ∀ (L : List (List ℚ)) (k i : ℕ), (∀ row ∈ L, row.length = w) → i < w →
    L.flatten.getD (i + k * w) d = (L.getD k []).getD i d := by
  intro L
  induction L with
  | nil => intro k i _ _; simp
  | cons row L ih =>
    intro k i h hi
    have hr := h row (by simp)
    cases k with
    | zero =>
      simp only [List.flatten_cons, Nat.zero_mul, Nat.add_zero, List.getD_cons_zero]
      rw [List.getD_eq_getElem?_getD, List.getD_eq_getElem?_getD, List.getElem?_append_left (by omega)]
    | succ k =>
      rw [List.flatten_cons, List.getD_eq_getElem?_getD, List.getElem?_append_right (by rw [hr, Nat.succ_mul]; omega), hr,
        show i + (k + 1) * w - w = i + k * w by rw [Nat.succ_mul]; omega, ← List.getD_eq_getElem?_getD, ih k i (fun r hr => h r (by simp [hr])) hi, List.getD_cons_succ]

theorem length_flatten_const (w : ℕ) (L : List (List ℚ)) (h : ∀ row ∈ L, row.length = w) : L.flatten.length = L.length * w := by
  induction L with
  | nil => simp
  | cons r L ih =>
    rw [List.flatten_cons, List.length_append, ih fun r hr => h r (by simp [hr]), h r (by simp), List.length_cons, Nat.succ_mul]
    omega

/-- Taking every seventh number gives back the columns. -/
theorem stride_rows (L : List (List ℚ)) (i : ℕ) (hi : i < 7) (h : ∀ row ∈ L, row.length = 7) :
    stride 0 i 7 L.flatten = L.map fun row => row.getD i 0 := by
  unfold stride
  have hl := length_flatten_const 7 L h
  have hn : (L.flatten.length - i + 7 - 1) / 7 = L.length := by
    rw [hl]; omega
  rw [hn]
  apply List.ext_getElem
  · simp
  · intro k h1 h2
    have hk : k < L.length := by simpa using h1
    rw [List.getElem_map, List.getElem_map, List.getElem_range, getD_flatten 7 0 L k i h hi]
    simp [List.getD_eq_getElem?_getD, hk]

/-- Reading the binary format gives back the columns in single precision. -/
theorem readBinary_rows (F : F32) (L : List (List ℚ)) (h : ∀ row ∈ L, row.length = 7) :
    readBinary F (L.flatMap fun row => row.flatMap F.enc) =
      fields.zipIdx.map fun p => (p.1, L.map fun row => F.rnd (row.getD p.2 0)) := by
  have hflat : (L.flatMap fun row => row.flatMap F.enc) = L.flatten.flatMap F.enc := by
    rw [List.flatMap_def, List.flatMap_def, List.map_flatten, List.flatten_flatten, List.map_map]; rfl
  unfold readBinary
  rw [hflat]
  have hlen := length_flatMap_const F.enc 4 L.flatten (fun _ _ => F.len _)
  have key := fromFile_items F.enc 4 (by norm_num) L.flatten (fun _ _ => F.len _) [] [] (L.flatten.length * 4)
  rw [List.append_nil, List.nil_append, List.take_of_length_le (by rw [hlen]), List.length_nil] at key
  rw [hlen, Nat.mul_div_cancel _ (by norm_num), key]
  simp only
  rw [Nat.mul_div_cancel _ (by norm_num), List.take_length, List.map_map]
  have hraw : L.flatten.map (F.dec ∘ F.enc) = (L.map fun row => row.map F.rnd).flatten := by
    rw [List.map_flatten]; rfl
  rw [hraw]
  apply List.map_congr_left
  intro p hp
  have hp2 : p.2 < 7 := by
    have := List.snd_lt_of_mem_zipIdx hp
    simpa [fields] using this
  rw [stride_rows _ _ hp2 (by intro row hr; obtain ⟨r, hr', rfl⟩ := List.mem_map.mp hr; simpa using h r hr'), List.map_map]
  congr 1
  apply List.map_congr_left
  intro row hr
  have := h row hr
  simp [List.getD_eq_getElem?_getD, this, hp2]

end Strata.Simple
