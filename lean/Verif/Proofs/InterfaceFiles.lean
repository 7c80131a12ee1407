import Verif.Spec.InterfaceFiles
import Verif.Proofs.Recenter
import Verif.Proofs.SpreadingLoop
/-! # Lemmas on the heights of interfaces -/
namespace Strata.InterfaceFiles
open Strata Strata.Flow Strata.Average Strata.Interface Strata.Spreading Strata.Spec

theorem length_levels (y0 d : ℚ) (n : ℕ) : (levels y0 d n).length = n := by simp [levels]

theorem getElem?_levels (y0 d : ℚ) (n i : ℕ) (h : i < n) : (levels y0 d n)[i]? = some (y0 + d * (i : ℚ)) := by
  unfold levels
  rw [List.getElem?_map, List.getElem?_range h]; rfl

theorem mem_levels (y0 d : ℚ) (n : ℕ) (x : ℚ) : x ∈ levels y0 d n ↔ ∃ i : ℕ, i < n ∧ y0 + d * (i : ℚ) = x := by
  unfold levels
  simp [List.mem_map, List.mem_range]

theorem yindexData_levels (y0 d : ℚ) (n : ℕ) (hd : 0 < d) (hn : 2 ≤ n) : yindexData (levels y0 d n) = .ok (levelIndex y0 d n) := by
  have e : npUnique (npDiff (levels y0 d n)) = [d] := by
    unfold levels
    rw [Driver.npDiff_grid]
    have h := Driver.npUnique_grid (List.replicate (n - 1) d) 1 d 1 one_pos (by
      intro x
      rw [List.mem_replicate]
      constructor
      · rintro ⟨_, rfl⟩; exact ⟨0, one_pos, by simp⟩
      · rintro ⟨i, hi, rfl⟩
        have : i = 0 := by omega
        subst this
        exact ⟨by omega, by simp⟩)
    rw [h]
    simp
  unfold yindexData
  rw [e]
  simp only
  rw [Resample.npMin_of_iff _ n (by omega) y0 d hd (mem_levels y0 d n), Driver.npMax_of_iff _ n (by omega) y0 d hd (mem_levels y0 d n), length_levels]
  rfl

/-- The row of a lattice height, clipped to the range. -/
theorem yindexOf_levels (y0 d : ℚ) (n : ℕ) (hd : 0 < d) (hn : 1 ≤ n) (k : ℤ) :
    (yindexOf (y0 + d * (k : ℚ)) (levelIndex y0 d n) : ℤ) = min (max k 0) ((n : ℤ) - 1) := by
  unfold yindexOf levelIndex
  simp only
  have e : (min (max (y0 + d * (k : ℚ)) y0) (y0 + d * ((n : ℚ) - 1)) - y0) / d = ((min (max k 0) ((n : ℤ) - 1) : ℤ) : ℚ) := by
    rw [div_eq_iff hd.ne']
    push_cast
    have h1 : max (y0 + d * (k : ℚ)) y0 = y0 + d * max (k : ℚ) 0 := by
      rw [mul_max_of_nonneg _ _ hd.le, mul_zero, ← max_add_add_left, add_zero]
    rw [h1, min_add_add_left, ← mul_min_of_nonneg _ _ hd.le]
    ring
  rw [e, pyInt_intCast, Int.toNat_of_nonneg]
  omega

theorem isClose_self (a : ℚ) : isClose a a = true := by
  unfold isClose
  simp only [sub_self, abs_zero, decide_eq_true_eq]
  have := abs_nonneg a
  linarith

/-- A lowest height is told from other lattice heights. -/
theorem isClose_lattice {y0 d : ℚ} (m : ℤ) (hd : Distinct d (y0 + d * (m : ℚ))) (hp : 0 < d) (h : isClose y0 (y0 + d * (m : ℚ)) = true) : m = 0 := by
  unfold isClose at h
  unfold Distinct at hd
  rw [decide_eq_true_eq] at h
  have e : |y0 - (y0 + d * (m : ℚ))| = d * |(m : ℚ)| := by
    rw [show y0 - (y0 + d * (m : ℚ)) = -(d * (m : ℚ)) by ring, abs_neg, abs_mul, abs_of_pos hp]
  rw [e] at h
  by_contra hm
  have h1 : (1 : ℚ) ≤ |(m : ℚ)| := by exact_mod_cast Int.one_le_abs hm
  nlinarith

/-- Transfer between overlapping ranges of lattice heights: the new range begins `m` heights above the old one. -/
theorem transferValues_levels {α : Type} (y0 d : ℚ) (hd : 0 < d) (n n' : ℕ) (m : ℤ) (hdis : Distinct d (y0 + d * (m : ℚ)))
    (hn : 1 ≤ n) (hn' : 1 ≤ n') (h1 : m < n) (h2 : 0 < m + n') (xs : List α) (hx : xs.length = n) :
    transferValues (some (xs, levelIndex y0 d n)) (levelIndex (y0 + d * (m : ℚ)) d n') =
      .ok ((List.range n').map fun i : ℕ => if 0 ≤ m + i then xs[(m + i).toNat]? else none) := by
  unfold transferValues
  simp only
  split_ifs with hc hc2
  · obtain ⟨hc1, -, -, hc4⟩ := hc
    have hm : m = 0 := isClose_lattice m hdis hd hc1
    subst hm
    simp only [levelIndex] at hc4
    subst hc4
    congr 1
    refine List.ext_getElem? fun i => ?_
    rw [List.getElem?_map, List.getElem?_map]
    by_cases hi : i < n
    · rw [List.getElem?_range hi, List.getElem?_eq_getElem (by omega)]
      simp [List.getElem?_eq_getElem (show i < xs.length by omega)]
    · rw [List.getElem?_eq_none (by omega), List.getElem?_eq_none (by simpa using hi)]; rfl
  · have i1 := yindexOf_levels (y0 + d * (m : ℚ)) d n' hd hn' (-m)
    have i2 := yindexOf_levels (y0 + d * (m : ℚ)) d n' hd hn' ((n : ℤ) - 1 - m)
    have j1 := yindexOf_levels y0 d n hd hn m
    have j2 := yindexOf_levels y0 d n hd hn (m + n' - 1)
    have e1 : y0 + d * (m : ℚ) + d * ((-m : ℤ) : ℚ) = y0 := by push_cast; ring
    have e2 : y0 + d * (m : ℚ) + d * (((n : ℤ) - 1 - m : ℤ) : ℚ) = y0 + d * ((n : ℚ) - 1) := by push_cast; ring
    have e3 : y0 + d * ((m + n' - 1 : ℤ) : ℚ) = y0 + d * (m : ℚ) + d * ((n' : ℚ) - 1) := by push_cast; ring
    rw [e1] at i1
    rw [e2] at i2
    rw [e3] at j2
    have ev1 : (levelIndex y0 d n).ymin = y0 := rfl
    have ev2 : (levelIndex y0 d n).ymax = y0 + d * ((n : ℚ) - 1) := rfl
    have ev3 : (levelIndex (y0 + d * (m : ℚ)) d n').ymin = y0 + d * (m : ℚ) := rfl
    have ev4 : (levelIndex (y0 + d * (m : ℚ)) d n').ymax = y0 + d * (m : ℚ) + d * ((n' : ℚ) - 1) := rfl
    have ev5 : (levelIndex (y0 + d * (m : ℚ)) d n').num = n' := rfl
    rw [ev1, ev2, ev3, ev4, ev5]
    generalize yindexOf y0 (levelIndex (y0 + d * (m : ℚ)) d n') = imin at *
    generalize yindexOf (y0 + d * ((n : ℚ) - 1)) (levelIndex (y0 + d * (m : ℚ)) d n') = imax at *
    generalize yindexOf (y0 + d * (m : ℚ)) (levelIndex y0 d n) = jmin at *
    generalize yindexOf (y0 + d * (m : ℚ) + d * ((n' : ℚ) - 1)) (levelIndex y0 d n) = jmax at *
    unfold sliceAssign
    have hlen : ((xs.take (jmax + 1)).drop jmin).length = min (imax + 1) n' - imin := by
      rw [List.length_drop, List.length_take]
      omega
    rw [if_pos hlen]
    congr 1
    apply List.map_congr_left
    intro i hi
    rw [List.mem_range] at hi
    by_cases hr : imin ≤ i ∧ i ≤ imax
    · rw [if_pos hr, if_pos (by omega), List.getElem?_drop, List.getElem?_take, if_pos (by omega)]
      congr 1
      omega
    · rw [if_neg hr]
      split_ifs with h0
      · rw [List.getElem?_eq_none (by omega)]
      · rfl
  · exact absurd (isClose_self d) hc2

theorem length_fillFront {α : Type} (l : List (Option α)) : (fillFront l).length = l.length := by
  unfold fillFront
  cases l.find? Option.isSome with
  | none => rfl
  | some v =>
    simp only
    rw [List.length_append, List.length_map, ← List.length_append, List.takeWhile_append_dropWhile]

theorem getElem?_fillFront {α : Type} (l : List (Option α)) (i : ℕ) (v : α) (h : l[i]? = some (some v)) : (fillFront l)[i]? = some (some v) := by
  unfold fillFront
  cases hf : l.find? Option.isSome with
  | none => exact h
  | some w =>
    simp only
    have hl : (l.takeWhile fun o => o.isNone).length ≤ i := by
      by_contra hlt
      push Not at hlt
      have h1 : (l.takeWhile fun o => o.isNone)[i]? = some (some v) := by
        rw [← h]
        conv_rhs => rw [← List.takeWhile_append_dropWhile (p := fun o : Option α => o.isNone) (l := l)]
        rw [List.getElem?_append_left hlt]
      have h2 := List.all_takeWhile (l := l) (p := fun o : Option α => o.isNone)
      rw [List.all_eq_true] at h2
      have := h2 _ (List.mem_of_getElem? h1)
      simp at this
    rw [List.getElem?_append_right (by simpa using hl), List.length_map]
    rw [← h]
    conv_rhs => rw [← List.takeWhile_append_dropWhile (p := fun o : Option α => o.isNone) (l := l)]
    rw [List.getElem?_append_right hl]

theorem getElem?_reverse' {α : Type} (l : List α) (i : ℕ) (h : i < l.length) : l.reverse[i]? = l[l.length - 1 - i]? := by
  rw [List.getElem?_reverse h]

theorem length_fillInfo (l : List (Option PeriodicInfo)) : (fillInfo l).length = l.length := by
  unfold fillInfo
  split_ifs
  · rw [List.length_reverse, length_fillFront, List.length_reverse, length_fillFront]
  · simp

/-- Known information is kept. -/
theorem getElem?_fillInfo (l : List (Option PeriodicInfo)) (i : ℕ) (v : PeriodicInfo) (h : l[i]? = some (some v)) :
    (fillInfo l)[i]? = some (some v) := by
  unfold fillInfo
  have hi : i < l.length := (List.getElem?_eq_some_iff.mp h).1
  rw [if_pos (by
    rw [List.any_eq_true]
    exact ⟨some v, List.mem_of_getElem? h, rfl⟩)]
  have hL : (fillFront (fillFront l).reverse).length = l.length := by rw [length_fillFront, List.length_reverse, length_fillFront]
  rw [getElem?_reverse' _ _ (by omega), hL]
  apply getElem?_fillFront
  rw [getElem?_reverse' _ _ (by rw [length_fillFront]; omega), length_fillFront]
  rw [show l.length - 1 - (l.length - 1 - i) = i by omega]
  exact getElem?_fillFront l i v h

theorem fillInfo_none (n : ℕ) : fillInfo (List.replicate n none) = List.replicate n (some initPeriodicInfo) := by
  unfold fillInfo
  rw [if_neg (by simp)]
  simp

end Strata.InterfaceFiles
