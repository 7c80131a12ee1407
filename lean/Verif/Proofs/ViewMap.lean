import Verif.Spec.ViewMap
import Verif.Props.View
/-!
# Proofs about height maps
-/
namespace Strata.View
open Strata Strata.Flow Strata.Average Strata.Resample Strata.Sample

theorem count_range (n m : ℕ) (p : ℕ → Bool) (h : ∀ k, k ≤ n → (p k = true ↔ k ≤ m)) (hm : m ≤ n) : ((List.range (n + 1)).filter p).length = m + 1 := by
  have e : (List.range (n + 1)).filter p = (List.range (n + 1)).filter fun k => decide (k ≤ m) := by
    refine List.filter_congr fun k hk => ?_
    have hk' : k ≤ n := by have := List.mem_range.mp hk; omega
    rw [Bool.eq_iff_iff, h k hk', decide_eq_true_iff]
  rw [e]
  have key : ∀ n, ((List.range (n + 1)).filter fun k => decide (k ≤ m)).length = min (m + 1) (n + 1) := by
    intro n
    induction n with
    | zero => simp [List.range_succ]
    | succ n ih =>
      rw [List.range_succ, List.filter_append, List.length_append, ih]
      by_cases hn : n + 1 ≤ m
      · rw [List.filter_cons_of_pos (by simpa using hn)]
        simp; omega
      · rw [List.filter_cons_of_neg (by simpa using hn)]
        simp; omega
  rw [key, min_eq_left (by omega)]

/-- A grid position is counted in the cell with its number. -/
theorem cellOf_grid {n i : ℕ} (hi : i < n) (x0 d : ℚ) (hd : 0 < d) :
    cellOf n (if n = 1 then (x0 - 1 / 2, x0 + 1 / 2) else (x0, x0 + d * ((n - 1 : ℕ) : ℚ))) (x0 + d * (i : ℚ)) = i := by
  by_cases h1 : n = 1
  · subst h1
    have hi0 : i = 0 := by omega
    subst hi0
    rw [if_pos rfl]
    unfold cellOf
    rw [count_range 1 0 _ _ (by omega)]
    · have hne : ¬ x0 + d * ((0 : ℕ) : ℚ) = cellEdge 1 (x0 - 1 / 2, x0 + 1 / 2) 1 := by
        unfold cellEdge
        push_cast
        intro h
        linarith
      rw [if_neg hne]
    · intro k hk
      rw [decide_eq_true_iff]
      unfold cellEdge
      push_cast
      constructor
      · intro h
        by_contra hc
        have : k = 1 := by omega
        subst this
        push_cast at h
        linarith
      · intro h
        have : k = 0 := by omega
        subst this
        push_cast
        linarith
  · rw [if_neg h1]
    obtain ⟨m, rfl⟩ : ∃ m, n = m + 2 := ⟨n - 2, by omega⟩
    have hedge : ∀ k : ℕ, cellEdge (m + 2) (x0, x0 + d * ((m + 2 - 1 : ℕ) : ℚ)) k = x0 + d * ((k * (m + 1) : ℕ) : ℚ) / ((m + 2 : ℕ) : ℚ) := by
      intro k
      unfold cellEdge
      rw [show m + 2 - 1 = m + 1 by omega]
      push_cast
      ring
    have hle : ∀ k : ℕ, cellEdge (m + 2) (x0, x0 + d * ((m + 2 - 1 : ℕ) : ℚ)) k ≤ x0 + d * (i : ℚ) ↔ k * (m + 1) ≤ i * (m + 2) := by
      intro k
      rw [hedge, add_le_add_iff_left, div_le_iff₀ (by positivity), mul_assoc, mul_le_mul_iff_right₀ hd]
      exact_mod_cast Iff.rfl
    unfold cellOf
    by_cases hl : i = m + 1
    · subst hl
      rw [count_range (m + 2) (m + 2) _ _ le_rfl]
      · rw [if_pos]
        · omega
        · rw [hedge]
          push_cast
          field_simp
      · intro k hk
        rw [decide_eq_true_iff, hle]
        constructor
        · intro _; exact hk
        · intro _; nlinarith
    · rw [count_range (m + 2) i _ _ (by omega)]
      · rw [if_neg]
        · omega
        · intro h
          have h2 := (hle (m + 2)).mp h.ge
          have : i ≤ m := by omega
          nlinarith
      · intro k hk
        rw [decide_eq_true_iff, hle]
        constructor
        · intro h
          by_contra hc
          have h3 : i + 1 ≤ k := by omega
          have h4 : (i + 1) * (m + 1) ≤ k * (m + 1) := Nat.mul_le_mul_right _ h3
          have : i ≤ m := by omega
          nlinarith
        · intro h
          calc k * (m + 1) ≤ i * (m + 1) := Nat.mul_le_mul_right _ h
            _ ≤ i * (m + 2) := Nat.mul_le_mul_left _ (by omega)

/-- The range of the cells along one axis, if the outermost grid lines are there. -/
theorem cellRange_grid (n : ℕ) (hn : 0 < n) (x0 d : ℚ) (hd : 0 < d) (xs : List ℚ) (h : ∀ x ∈ xs, ∃ i, i < n ∧ x = x0 + d * (i : ℚ))
    (h0 : x0 ∈ xs) (h1 : x0 + d * ((n - 1 : ℕ) : ℚ) ∈ xs) :
    cellRange xs = if n = 1 then (x0 - 1 / 2, x0 + 1 / 2) else (x0, x0 + d * ((n - 1 : ℕ) : ℚ)) := by
  have hmin : npMin xs = .ok x0 := by
    rw [npMin_ok_iff]
    refine ⟨h0, fun x hx => ?_⟩
    obtain ⟨i, -, rfl⟩ := h x hx
    have : 0 ≤ d * (i : ℚ) := by positivity
    linarith
  have hmax : npMax xs = .ok (x0 + d * ((n - 1 : ℕ) : ℚ)) := by
    rw [npMax_ok_iff]
    refine ⟨h1, fun x hx => ?_⟩
    obtain ⟨i, hi, rfl⟩ := h x hx
    have : (i : ℚ) ≤ ((n - 1 : ℕ) : ℚ) := by exact_mod_cast (by omega : i ≤ n - 1)
    nlinarith
  unfold cellRange
  rw [hmin, hmax]
  simp only
  by_cases hn1 : n = 1
  · subst hn1
    simp
  · rw [if_neg hn1, if_neg]
    intro h
    have h2 : (1 : ℚ) ≤ ((n - 1 : ℕ) : ℚ) := by exact_mod_cast (by omega : 1 ≤ n - 1)
    nlinarith

/-- Rows on a grid whose outermost lines are there are counted in the cells of their nodes. -/
structure OnGrid (sp : ℚ × ℚ) (x0 y0 : ℚ) (nx ny : ℕ) (xs ys : List ℚ) : Prop where
  dx : 0 < sp.1
  dy : 0 < sp.2
  nxpos : 0 < nx
  nypos : 0 < ny
  len : ys.length = xs.length
  x : ∀ x ∈ xs, ∃ i, i < nx ∧ x = x0 + sp.1 * (i : ℚ)
  y : ∀ y ∈ ys, ∃ j, j < ny ∧ y = y0 + sp.2 * (j : ℚ)
  xmin : x0 ∈ xs
  xmax : x0 + sp.1 * ((nx - 1 : ℕ) : ℚ) ∈ xs
  ymin : y0 ∈ ys
  ymax : y0 + sp.2 * ((ny - 1 : ℕ) : ℚ) ∈ ys

theorem cellOf_axis {n : ℕ} (hn : 0 < n) (x0 d : ℚ) (hd : 0 < d) (xs : List ℚ) (h : ∀ x ∈ xs, ∃ i, i < n ∧ x = x0 + d * (i : ℚ))
    (h0 : x0 ∈ xs) (h1 : x0 + d * ((n - 1 : ℕ) : ℚ) ∈ xs) {x : ℚ} (hx : x ∈ xs) (i : ℕ) :
    cellOf n (cellRange xs) x = i ↔ x = x0 + d * (i : ℚ) := by
  rw [cellRange_grid n hn x0 d hd xs h h0 h1]
  obtain ⟨k, hk, rfl⟩ := h x hx
  rw [cellOf_grid hk x0 d hd]
  constructor
  · rintro rfl; rfl
  · intro e
    have : d * (k : ℚ) = d * (i : ℚ) := by linarith
    exact_mod_cast mul_left_cancel₀ hd.ne' this

theorem cellSum_grid {V : Type} [Add V] [Zero V] {sp : ℚ × ℚ} {x0 y0 : ℚ} {nx ny : ℕ} {xs ys : List ℚ} (h : OnGrid sp x0 y0 nx ny xs ys)
    (ws : List (Option V)) (i j : ℕ) :
    cellSum nx ny xs ys ws i j = (((List.range xs.length).filter fun t : ℕ =>
      decide (xs.getD t 0 = x0 + sp.1 * (i : ℚ)) && decide (ys.getD t 0 = y0 + sp.2 * (j : ℚ))).mapM fun t : ℕ => ws.getD t none).map List.sum := by
  unfold cellSum
  congr 2
  refine List.filter_congr fun t ht => ?_
  have ht' := List.mem_range.mp ht
  have hx : xs.getD t 0 ∈ xs := by
    rw [List.getD_eq_getElem?_getD, List.getElem?_eq_getElem ht', Option.getD_some]; exact List.getElem_mem _
  have hy : ys.getD t 0 ∈ ys := by
    rw [List.getD_eq_getElem?_getD, List.getElem?_eq_getElem (by rw [h.len]; exact ht'), Option.getD_some]; exact List.getElem_mem _
  congr 1
  · rw [decide_eq_decide]; exact cellOf_axis h.nxpos x0 sp.1 h.dx xs h.x h.xmin h.xmax hx i
  · rw [decide_eq_decide]; exact cellOf_axis h.nypos y0 sp.2 h.dy ys h.y h.ymin h.ymax hy j

/-- Filtering a range for the only number with a property. -/
theorem filter_range_unique (n t : ℕ) (p : ℕ → Bool) (ht : t < n) (h : ∀ s, s < n → (p s = true ↔ s = t)) : (List.range n).filter p = [t] := by
  rw [List.filter_congr (q := fun s => decide (s = t)) (fun s hs => by
    rw [Bool.eq_iff_iff, h s (List.mem_range.mp hs), decide_eq_true_iff])]
  rw [List.filter_eq, List.count_eq_one_of_mem List.nodup_range (List.mem_range.mpr ht)]
  rfl

theorem cellSum_at {V : Type} [AddZeroClass V] {sp : ℚ × ℚ} {x0 y0 : ℚ} {nx ny : ℕ} {xs ys : List ℚ} (h : OnGrid sp x0 y0 nx ny xs ys)
    (ws : List (Option V)) (i j t : ℕ) (ht : t < xs.length)
    (hu : ∀ s, s < xs.length → ((xs.getD s 0 = x0 + sp.1 * (i : ℚ) ∧ ys.getD s 0 = y0 + sp.2 * (j : ℚ)) ↔ s = t)) :
    cellSum nx ny xs ys ws i j = ws.getD t none := by
  rw [cellSum_grid h, filter_range_unique _ t _ ht (fun s hs => by simpa using hu s hs)]
  simp only [List.mapM_cons, List.mapM_nil]
  cases ws.getD t none <;> simp

theorem cellSum_empty {V : Type} [AddZeroClass V] {sp : ℚ × ℚ} {x0 y0 : ℚ} {nx ny : ℕ} {xs ys : List ℚ} (h : OnGrid sp x0 y0 nx ny xs ys)
    (ws : List (Option V)) (i j : ℕ)
    (hu : ∀ s, s < xs.length → ¬ (xs.getD s 0 = x0 + sp.1 * (i : ℚ) ∧ ys.getD s 0 = y0 + sp.2 * (j : ℚ))) :
    cellSum nx ny xs ys ws i j = some 0 := by
  rw [cellSum_grid h, List.filter_eq_nil_iff.mpr (fun s hs => by simpa using hu s (List.mem_range.mp hs))]
  simp

theorem blank_some (lims : Option ℝ × Option ℝ) (v : ℝ) : blank lims (some v) = shownValue lims v := by
  unfold blank shownValue
  simp only [Option.bind_some]
  by_cases h : (∀ c, lims.1 = some c → c ≤ v) ∧ (∀ c, lims.2 = some c → v ≤ c)
  · rw [if_pos h, if_neg]
    rintro (⟨c, hc, hlt⟩ | ⟨c, hc, hlt⟩)
    · exact absurd (h.1 c hc) (not_le.mpr hlt)
    · exact absurd (h.2 c hc) (not_le.mpr hlt)
  · rw [if_neg h, if_pos]
    by_contra hc
    push Not at hc
    exact h hc

end Strata.View
