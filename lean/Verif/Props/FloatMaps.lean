import Verif.Proofs.FloatMaps
import Verif.Props.FloatAverage
/-!
# Rounding errors of averages of flow maps: C134
-/
namespace Strata.FloatMaps
open Strata Strata.Flow Strata.Average Strata.FloatAverage

theorem mean_error_abs {u : ℚ} (hu : 0 ≤ u) {fl : ℚ → ℚ} (hfl : Rounds u fl) {sum : List ℚ → ℚ} (hsum : Sums fl sum) (xs : List ℚ) (hne : xs ≠ [])
    (c : ℚ) (hc : 0 < c) (hk : (xs.length : ℚ) * u ≤ 1 / 8) :
    |fl (sum xs / c) - xs.sum / c| ≤ 8 / 7 * ((xs.length : ℚ) * u) * ((xs.map fun x => |x|).sum / c) := by
  have he := (hsum xs hne).error hu hfl
  have hS := abs_nonneg_sum xs
  have hSa := abs_sum_le xs
  have hpow : (1 + u) ^ xs.length = (1 + u) ^ (xs.length - 1) * (1 + u) := by
    rw [← pow_succ]
    congr 1
    have := List.length_pos_iff.mpr hne
    omega
  have hb := pow_bound hu xs.length hk
  rw [hpow] at hb
  have hE := one_le_pow' hu (xs.length - 1)
  generalize (1 + u) ^ (xs.length - 1) = E at *
  generalize sum xs = s at *
  generalize xs.sum = S at *
  generalize (xs.map fun x => |x|).sum = A at *
  have hf := hfl (s / c)
  have h1 : |s / c - S / c| ≤ (E - 1) * (A / c) := by
    rw [← sub_div, abs_div, abs_of_pos hc, ← mul_div_assoc]
    exact div_le_div_of_nonneg_right he hc.le
  have hSc : |S / c| ≤ A / c := by
    rw [abs_div, abs_of_pos hc]
    exact div_le_div_of_nonneg_right hSa hc.le
  have hAc : 0 ≤ A / c := div_nonneg hS hc.le
  generalize s / c = a at *
  generalize S / c = b at *
  generalize A / c = g at *
  have h2 : |a| ≤ E * g := by
    have : a = (a - b) + b := by ring
    rw [this]
    refine le_trans (abs_add_le _ _) ?_
    linarith
  have : fl a - b = (fl a - a) + (a - b) := by ring
  rw [this]
  refine le_trans (abs_add_le _ _) ?_
  have h3 := mul_le_mul_of_nonneg_left h2 hu
  have h4 := mul_le_mul_of_nonneg_right hb hAc
  nlinarith

/-- Dividing by the number of maps and multiplying by it again moves the total weight by at most `3 u` of it. -/
theorem total_near {u : ℚ} (hu : 0 ≤ u) (hu1 : u ≤ 1) {fl : ℚ → ℚ} (hfl : Rounds u fl) (S : ℚ) (hS : 0 ≤ S) (c : ℚ) (hc : 0 < c) :
    |fl (c * fl (S / c)) - S| ≤ 3 * u * S := by
  have h1 := hfl (S / c)
  rw [abs_of_nonneg (div_nonneg hS hc.le)] at h1
  have h2 : |c * fl (S / c) - S| ≤ u * S := by
    have e : c * fl (S / c) - S = c * (fl (S / c) - S / c) := by field_simp
    have e2 : u * S = c * (u * (S / c)) := by field_simp
    rw [e, abs_mul, abs_of_pos hc, e2]
    exact mul_le_mul_of_nonneg_left h1 hc.le
  have h3 := hfl (c * fl (S / c))
  generalize c * fl (S / c) = y at *
  have h4 : |y| ≤ (1 + u) * S := by
    have e : y = (y - S) + S := by ring
    rw [e]
    refine le_trans (abs_add_le _ _) ?_
    rw [abs_of_nonneg hS]
    linarith
  have e : fl y - S = (fl y - y) + (y - S) := by ring
  rw [e]
  refine le_trans (abs_add_le _ _) ?_
  have h5 := mul_le_mul_of_nonneg_left h4 hu
  have h6 : u * (u * S) ≤ 1 * (u * S) := mul_le_mul_of_nonneg_right hu1 (mul_nonneg hu hS)
  linarith

/-- The rounded weighted mean with the total weight taken from the rounded mean. -/
theorem mapped_error {u : ℚ} (hu : 0 ≤ u) {fl : ℚ → ℚ} (hfl : Rounds u fl) {sum : List ℚ → ℚ} (hsum : Sums fl sum) (huge : ℚ) (ps : List (ℚ × ℚ)) (hne : ps ≠ [])
    (V : ℚ) (h0 : ∀ p ∈ ps, 0 ≤ p.2) (hV : ∀ p ∈ ps, |p.1| ≤ V) (hk : ((ps.length : ℚ) + 1) * u ≤ 1 / 8) :
    |divNan fl huge (sum (ps.map fun p => fl (p.1 * p.2))) (fl ((ps.length : ℚ) * fl (sum (ps.map fun p => p.2) / ps.length))) -
        Average.divNan huge (ps.map fun p => p.1 * p.2).sum (ps.map fun p => p.2).sum| ≤ 3 * ((ps.length : ℚ) + 4) * u * V ∧
      ((∀ p ∈ ps, p.2 = 0) →
        divNan fl huge (sum (ps.map fun p => fl (p.1 * p.2))) (fl ((ps.length : ℚ) * fl (sum (ps.map fun p => p.2) / ps.length))) = 0) := by
  obtain ⟨q1, q2⟩ := quotient_error hu hfl hsum ps hne V h0 hV hk
  have hlen : 0 < ps.length := List.length_pos_iff.mpr hne
  have hc : (1 : ℚ) ≤ ps.length := by exact_mod_cast hlen
  have hV0 : 0 ≤ V := by
    obtain ⟨p, hp⟩ := List.exists_mem_of_ne_nil _ hne
    exact le_trans (abs_nonneg _) (hV p hp)
  have hu16 : u ≤ 1 / 16 := by nlinarith
  have hW0 : 0 ≤ (ps.map fun p => p.2).sum := List.sum_nonneg (by
    intro x hx
    obtain ⟨p, hp, rfl⟩ := List.mem_map.mp hx
    exact h0 p hp)
  rcases hW0.eq_or_lt with hz | hz
  · obtain ⟨z1, z2, z3⟩ := q2 hz.symm
    have hd : divNan fl huge 0 0 = 0 := by simp [divNan]
    have hd' : Average.divNan huge 0 0 = 0 := by simp [Average.divNan]
    rw [z1, z2, z3, ← hz, zero_div, hfl.zero, mul_zero, hfl.zero, hd, hd']
    refine ⟨?_, fun _ => rfl⟩
    rw [sub_zero, abs_zero]
    positivity
  · obtain ⟨hS, he⟩ := q1 hz
    have hT := total_near hu (by linarith) hfl (sum (ps.map fun p => p.2)) hS.le (ps.length : ℚ) (by linarith)
    refine ⟨?_, fun hall => absurd (List.sum_eq_zero (by
      intro x hx
      obtain ⟨p, hp, rfl⟩ := List.mem_map.mp hx
      exact hall p hp)) hz.ne'⟩
    have hrV : |(ps.map fun p => p.1 * p.2).sum / (ps.map fun p => p.2).sum| ≤ V := by
      rw [abs_div, abs_of_pos hz, div_le_iff₀ hz]
      refine le_trans (abs_sum_le _) ?_
      rw [List.map_map]
      exact sum_map_mul_le V ps hV h0
    generalize hx : ((ps.length : ℚ) + 1) * u = x at *
    have e3 : 3 * ((ps.length : ℚ) + 1) * u * V = 3 * x * V := by rw [← hx]; ring
    have e4 : 3 * ((ps.length : ℚ) + 4) * u * V = 3 * x * V + 9 * u * V := by rw [← hx]; ring
    rw [e3] at he
    rw [e4]
    have hx0 : 0 ≤ x := by rw [← hx]; positivity
    clear q1 q2 e3 e4 hx
    generalize fl ((ps.length : ℚ) * fl (sum (ps.map fun p => p.2) / ps.length)) = T at *
    generalize sum (ps.map fun p => p.2) = S at *
    generalize sum (ps.map fun p => fl (p.1 * p.2)) = N at *
    have hT' := abs_le.mp hT
    have huS : u * S ≤ 1 / 16 * S := mul_le_mul_of_nonneg_right hu16 hS.le
    have hTl : 13 / 16 * S ≤ T := by linarith
    have hT0 : 0 < T := by linarith
    unfold divNan Average.divNan
    rw [if_neg hT0.ne', if_neg hz.ne']
    generalize (ps.map fun p => p.1 * p.2).sum / (ps.map fun p => p.2).sum = r at *
    -- |N / S| is at most 3/2 V
    have hxV : 3 * x * V ≤ 3 / 8 * V := mul_le_mul_of_nonneg_right (by linarith) hV0
    have hq := hfl (N / S)
    have hq2 : |fl (N / S)| ≤ 11 / 8 * V := by
      have e : fl (N / S) = (fl (N / S) - r) + r := by ring
      rw [e]
      refine le_trans (abs_add_le _ _) ?_
      linarith
    have hq3 : |N / S| ≤ 3 / 2 * V := by
      have e : N / S = fl (N / S) - (fl (N / S) - N / S) := by ring
      have : |N / S| ≤ |fl (N / S)| + |fl (N / S) - N / S| := by
        conv_lhs => rw [e]
        exact abs_sub _ _
      have : u * |N / S| ≤ 1 / 16 * |N / S| := mul_le_mul_of_nonneg_right hu16 (abs_nonneg _)
      linarith
    have eT : N / T = N / S * (S / T) := by
      have := hS.ne'
      field_simp
    have hST : |S / T - 1| ≤ 48 / 13 * u := by
      have e : S / T - 1 = (S - T) / T := by have := hT0.ne'; field_simp
      rw [e, abs_div, abs_of_pos hT0, div_le_iff₀ hT0, abs_sub_comm]
      have : 48 / 13 * u * (13 / 16 * S) ≤ 48 / 13 * u * T := mul_le_mul_of_nonneg_left hTl (by positivity)
      linarith
    have hNT : |N / T - N / S| ≤ 3 / 2 * V * (48 / 13 * u) := by
      have e : N / T - N / S = N / S * (S / T - 1) := by rw [eT]; ring
      rw [e, abs_mul]
      exact mul_le_mul hq3 hST (abs_nonneg _) (by positivity)
    have hST' : |S / T| ≤ 16 / 13 := by
      rw [abs_of_pos (div_pos hS hT0), div_le_iff₀ hT0]
      linarith
    have hNT' : |N / T| ≤ 3 / 2 * V * (16 / 13) := by
      rw [eT, abs_mul]
      exact mul_le_mul hq3 hST' (abs_nonneg _) (by positivity)
    have hf := hfl (N / T)
    have f1 := mul_le_mul_of_nonneg_left hNT' hu
    have f2 := mul_le_mul_of_nonneg_left hq3 hu
    have e : fl (N / T) - r = (fl (N / T) - N / T) + (N / T - N / S) + (N / S - fl (N / S)) + (fl (N / S) - r) := by ring
    rw [e]
    have t1 := abs_add_le ((fl (N / T) - N / T) + (N / T - N / S) + (N / S - fl (N / S))) (fl (N / S) - r)
    have t2 := abs_add_le ((fl (N / T) - N / T) + (N / T - N / S)) (N / S - fl (N / S))
    have t3 := abs_add_le (fl (N / T) - N / T) (N / T - N / S)
    have t4 : |N / S - fl (N / S)| = |fl (N / S) - N / S| := abs_sub_comm _ _
    have huV : 0 ≤ u * V := by positivity
    linarith

/-- Without rounding, the function is the exact one. -/
theorem C134_exact (huge : ℚ) (ds : List Record) (ws : List (Label × Label)) (co : Label × Label) :
    averageData id List.sum huge ds ws co = Average.averageData huge ds ws co := rfl

/-- **C134.** The average of `k` maps on the same bins, computed with any rounding of relative error at most `u` and additions in any order, with weights that
are not negative and `(k + 1) u ≤ 1/8`.  It succeeds like the exact one, with the same fields and the same coordinates; a plain mean differs from the exact
one by at most `2 k u` times the mean of the absolute values (so masses have a relative error of at most `2 k u`), a weighted mean by at most `3 (k + 4) u`
times the largest value averaged, and it is exactly 0 in bins without weight. -/
theorem C134_average_errors (u : ℚ) (hu : 0 ≤ u) (fl : ℚ → ℚ) (hfl : Rounds u fl) (sum : List ℚ → ℚ) (hsum : Sums fl sum) (huge : ℚ)
    (ds : List Record) (ws : List (Label × Label)) (co : Label × Label) (ls : List Label) (n : ℕ) (hne : ds ≠ []) (huni : Uniform ds ls n)
    (hnd : (ws.map Prod.fst).Nodup) (hws : ∀ p ∈ ws, p.1 ∈ ls ∧ p.2 ∈ ls ∧ p.2 ≠ co.1 ∧ p.2 ≠ co.2 ∧ ∀ q ∈ ws, q.1 ≠ p.2)
    (hpos : ∀ p ∈ ws, ∀ d ∈ ds, ∀ t, t < n → 0 ≤ val d p.2 t) (hk : ((ds.length : ℚ) + 1) * u ≤ 1 / 8) :
    ∃ r r', Average.averageData huge ds ws co = .ok r ∧ averageData fl sum huge ds ws co = .ok r' ∧ Wf r' ∧ names r' = names r ∧ Flow.size r' = Flow.size r ∧
      (∀ l, l = co.1 ∨ l = co.2 → (∀ p ∈ ws, p.1 ≠ l) → ∀ t, val r' l t = val r l t) ∧
      (∀ l ∈ ls, l ≠ co.1 → l ≠ co.2 → (∀ p ∈ ws, p.1 ≠ l) → ∀ t, t < n →
        |val r' l t - val r l t| ≤ 2 * ds.length * u * ((ds.map fun d => |val d l t|).sum / ds.length) ∧
        ((∀ d ∈ ds, 0 ≤ val d l t) → |val r' l t - val r l t| ≤ 2 * ds.length * u * val r l t)) ∧
      (∀ p ∈ ws, ∀ t, t < n → ∀ V : ℚ, (∀ d ∈ ds, |val d p.1 t| ≤ V) →
        |val r' p.1 t - val r p.1 t| ≤ 3 * (ds.length + 4) * u * V ∧ ((∀ d ∈ ds, val d p.2 t = 0) → val r' p.1 t = 0)) := by
  obtain ⟨r, a1, a2, a3, a4, a5, a6, a7⟩ := Average.averageData_spec huge ds ws co ls n hne huni hnd hws
  obtain ⟨r', b1, b2, b3, b4, b5, b6, b7⟩ := averageData_spec fl sum huge ds ws co ls n hne huni hnd hws
  have hlen : 0 < ds.length := List.length_pos_iff.mpr hne
  have hc : (0 : ℚ) < ds.length := by exact_mod_cast hlen
  refine ⟨r, r', a1, b1, b2, by rw [a3, b3], by rw [a4, b4], ?_, ?_, ?_⟩
  · intro l hl hp t
    obtain ⟨d, hd⟩ : ∃ d, ds.head? = some d := by
      cases ds with
      | nil => exact absurd rfl hne
      | cons d rest => exact ⟨d, rfl⟩
    rw [a5 d hd l hl hp t, b5 d hd l hl hp t]
  · intro l hl n1 n2 hp t ht
    have hm := mean_error_abs hu hfl hsum (ds.map fun d => val d l t) (by simpa using hne) (ds.length : ℚ) hc (by
      rw [List.length_map]; nlinarith)
    rw [List.length_map, List.map_map] at hm
    rw [a6 l hl n1 n2 hp t ht, b6 l hl n1 n2 hp t ht]
    have hnn : 0 ≤ (ds.map fun d => |val d l t|).sum / (ds.length : ℚ) := by
      refine div_nonneg (List.sum_nonneg ?_) hc.le
      intro x hx
      obtain ⟨d, -, rfl⟩ := List.mem_map.mp hx
      exact abs_nonneg _
    have hm' : |fl (sum (ds.map fun d => val d l t) / ds.length) - (ds.map fun d => val d l t).sum / ds.length| ≤
        2 * ds.length * u * ((ds.map fun d => |val d l t|).sum / ds.length) := by
      refine le_trans hm (mul_le_mul_of_nonneg_right ?_ hnn)
      have : 0 ≤ (ds.length : ℚ) * u := by positivity
      linarith
    refine ⟨hm', fun h0 => ?_⟩
    have e : (ds.map fun d => |val d l t|) = ds.map fun d => val d l t := by
      apply List.map_congr_left
      intro d hd
      exact abs_of_nonneg (h0 d hd)
    rw [e] at hm'
    exact hm'
  · intro p hp t ht V hV
    have hq := mapped_error hu hfl hsum huge (ds.map fun d => (val d p.1 t, val d p.2 t)) (by simpa using hne) V
      (by
        intro q hq
        obtain ⟨d, hd, rfl⟩ := List.mem_map.mp hq
        exact hpos p hp d hd t ht)
      (by
        intro q hq
        obtain ⟨d, hd, rfl⟩ := List.mem_map.mp hq
        exact hV d hd)
      (by rw [List.length_map]; exact hk)
    rw [List.length_map] at hq
    simp only [List.map_map] at hq
    rw [a7 p hp t ht, b7 p hp t ht]
    refine ⟨hq.1, fun hall => hq.2 ?_⟩
    intro q hq
    obtain ⟨d, hd, rfl⟩ := List.mem_map.mp hq
    exact hall d hd

/-- Two maps of two bins with an empty bin, averaged in double precision: the mean of the masses 1/10 and 1/5 is rounded. -/
def exMaps : List Record := [[("X", [0, 1]), ("Y", [0, 0]), ("M", [roundBits 53 (1 / 10), 0]), ("U", [1, 2])],
  [("X", [0, 1]), ("Y", [0, 0]), ("M", [roundBits 53 (1 / 5), 0]), ("U", [-3, 5])]]

example : Uniform exMaps ["X", "Y", "M", "U"] 2 ∧ ([("U", "M")].map Prod.fst).Nodup ∧
    (∀ p ∈ [("U", "M")], ∀ d ∈ exMaps, ∀ t : ℕ, t < 2 → 0 ≤ val d p.2 t) ∧ ((exMaps.length : ℚ) + 1) * (1 / 2 ^ 53) ≤ 1 / 8 ∧
    ((averageData (roundBits 53) (inOrder (roundBits 53)) 0 exMaps [("U", "M")]).map fun r => (val r "U" 0, val r "U" 1)) = .ok (-7505999378950827 / 4503599627370496, 0) ∧
    averageData (roundBits 53) (inOrder (roundBits 53)) 0 exMaps [("U", "M")] ≠ Average.averageData 0 exMaps [("U", "M")] := by
  refine ⟨?_, ?_, ?_, ?_, ?_, ?_⟩
  · unfold Uniform Wf exMaps; decide +kernel
  all_goals decide +kernel

end Strata.FloatMaps
