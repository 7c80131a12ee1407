import Verif.Model.Sample
import Verif.Proofs.ResampleProps
import Verif.Proofs.GmxRead
import Mathlib.Algebra.Polynomial.Derivative
/-! # Lemmas about sampling -/
namespace Strata.Sample
open Strata Strata.Flow Strata.Average Strata.Resample Strata.Gmx

theorem field_ok {r : Record} {l : Label} (h : l ∈ names r) : ∃ c, col? r l = some c ∧ field r l = .ok c := by
  obtain ⟨c, hc⟩ := (col?_isSome_iff r l).mpr h
  exact ⟨c, hc, by unfold field; rw [hc]⟩

theorem gradient_congr {n : ℕ} (hn : 3 ≤ n) {h : ℚ} {f g : ℕ → ℚ} (e : ∀ i, i < n → f i = g i) {i : ℕ} (hi : i < n) :
    gradient n h f i = gradient n h g i := by
  unfold gradient
  split_ifs with h0 h1
  · rw [e 0 (by omega), e 1 (by omega), e 2 (by omega)]
  · rw [e _ (by omega), e _ (by omega), e _ (by omega)]
  · rw [e _ (by omega), e _ (by omega)]

theorem gradient_linear (n : ℕ) (h : ℚ) (f g : ℕ → ℚ) (a b : ℚ) (i : ℕ) :
    gradient n h (fun k => a * f k + b * g k) i = a * gradient n h f i + b * gradient n h g i := by
  unfold gradient
  split_ifs <;> ring

theorem gradient_const (n : ℕ) (h : ℚ) (hh : h ≠ 0) (a : ℚ) (i : ℕ) : gradient n h (fun _ => a) i = 0 := by
  unfold gradient
  split_ifs <;> ring

/-- The differences are exact for quadratic functions. -/
theorem gradient_quadratic {n : ℕ} (hn : 3 ≤ n) {h : ℚ} (hh : h ≠ 0) (x0 a b c : ℚ) {i : ℕ} (hi : i < n) :
    gradient n h (fun k => a + b * (x0 + h * (k : ℚ)) + c * (x0 + h * (k : ℚ)) ^ 2) i = b + 2 * c * (x0 + h * (i : ℚ)) := by
  unfold gradient
  split_ifs with h0 h1
  · subst h0; push_cast; field_simp; ring
  · obtain ⟨m, rfl⟩ : ∃ m, n = m + 3 := ⟨n - 3, by omega⟩
    have : i = m + 2 := by omega
    subst this
    simp only [Nat.add_sub_cancel, show m + 3 - 2 = m + 1 by omega, show m + 3 - 1 = m + 2 by omega]
    push_cast; field_simp; ring
  · obtain ⟨m, rfl⟩ : ∃ m, i = m + 1 := ⟨i - 1, by omega⟩
    simp only [Nat.add_sub_cancel]
    push_cast; field_simp; ring

open Polynomial in
theorem quadratic_eval {p : ℚ[X]} (hp : p.natDegree ≤ 2) (x : ℚ) :
    p.eval x = p.coeff 0 + p.coeff 1 * x + p.coeff 2 * x ^ 2 ∧ p.derivative.eval x = p.coeff 1 + 2 * p.coeff 2 * x := by
  have e : p = C (p.coeff 0) + C (p.coeff 1) * X + C (p.coeff 2) * X ^ 2 := by
    conv_lhs => rw [p.as_sum_range' 3 (by omega)]
    simp [Finset.sum_range_succ, ← C_mul_X_pow_eq_monomial]
  constructor
  · conv_lhs => rw [e]
    simp
  · conv_lhs => rw [e]
    simp
    ring

open Polynomial in
theorem gradient_poly {n : ℕ} (hn : 3 ≤ n) {h : ℚ} (hh : h ≠ 0) (x0 : ℚ) {p : ℚ[X]} (hp : p.natDegree ≤ 2) {f : ℕ → ℚ}
    (hf : ∀ k, k < n → f k = p.eval (x0 + h * (k : ℚ))) {i : ℕ} (hi : i < n) : gradient n h f i = p.derivative.eval (x0 + h * (i : ℚ)) := by
  rw [(quadratic_eval hp _).2, ← gradient_quadratic hn hh x0 (p.coeff 0) (p.coeff 1) (p.coeff 2) hi]
  apply gradient_congr hn _ hi
  intro k hk
  rw [hf k hk, (quadratic_eval hp _).1]

/-- The dissipation at a node, from the values at the nodes. -/
def nodeDiss (μ : ℚ) (sp : ℚ × ℚ) (nx ny : ℕ) (U V : ℕ → ℕ → ℚ) (i j : ℕ) : ℚ :=
  formula μ (gradient nx sp.1 (fun a => U a j) i) (gradient ny sp.2 (fun b => U i b) j)
    (gradient nx sp.1 (fun a => V a j) i) (gradient ny sp.2 (fun b => V i b) j)

theorem viscous_eq (f : Flow) (μ : ℚ) (sp : ℚ × ℚ) (x0 y0 : ℚ) (nx ny : ℕ) (co fl : Label × Label) (weight : Option Label)
    (h : FullMap f sp x0 y0 nx ny co)
    (hx : 0 < sp.1) (hy : 0 < sp.2) (hnx : 3 ≤ nx) (hny : 3 ≤ ny) (hu : fl.1 ∈ names f.data) (hv : fl.2 ∈ names f.data)
    (hw : ∀ w, weight = some w → w ∈ names f.data) :
    ∃ g d, viscousDissipation f μ co fl weight = .ok (g, d) ∧ g.info = f.info ∧ names g.data = names f.data ∧
      Lattice g.data sp x0 y0 nx ny co ∧
      (∀ l i j, i < nx → j < ny → val g.data l (j * nx + i) = atNode f.data l sp x0 y0 co i j) ∧ d.length = nx * ny ∧
      ∀ i j, i < nx → j < ny → d.getD (j * nx + i) none =
        if (weight.elim 1 fun w => atNode f.data w sp x0 y0 co i j) = 0 then none
        else some (nodeDiss μ sp nx ny
            (fun a b => atNode f.data fl.1 sp x0 y0 co a b * weight.elim 1 fun w => atNode f.data w sp x0 y0 co a b)
            (fun a b => atNode f.data fl.2 sp x0 y0 co a b * weight.elim 1 fun w => atNode f.data w sp x0 y0 co a b) i j /
          (weight.elim 1 fun w => atNode f.data w sp x0 y0 co i j) ^ 2) := by
  obtain ⟨hg, hsh, hsp⟩ := h
  obtain ⟨s, hs, hlat, hn, hval⟩ := sort_fullGrid hg hx hy
  obtain ⟨u, hu1, hu2⟩ := field_ok (r := s) (l := fl.1) (by rw [hn]; exact hu)
  obtain ⟨v, hv1, hv2⟩ := field_ok (r := s) (l := fl.2) (by rw [hn]; exact hv)
  have hwt : ∃ w : List ℚ, weightsOf s (nx * ny) weight = .ok w ∧
      ∀ i j, i < nx → j < ny → w.getD (j * nx + i) 0 = weight.elim 1 fun w => atNode f.data w sp x0 y0 co i j := by
    cases weight with
    | none =>
      refine ⟨_, rfl, ?_⟩
      intro i j hi hj
      have : j * nx + i < nx * ny := grid_lt hi hj
      simp [List.getD_eq_getElem?_getD, this]
    | some l =>
      obtain ⟨w, h1, h2⟩ := field_ok (r := s) (l := l) (by rw [hn]; exact hw l rfl)
      refine ⟨w, h2, ?_⟩
      intro i j hi hj
      show _ = atNode f.data l sp x0 y0 co i j
      rw [← hval l i j hi hj, val_of_col h1]
  obtain ⟨w, hw1, hw2⟩ := hwt
  have hr : viscousDissipation f μ co fl weight = .ok (⟨s, f.info⟩, (List.range (nx * ny)).map fun t =>
      if sp.1 = 0 ∨ sp.2 = 0 ∨ w.getD t 0 = 0 then none
          else some (formula μ (gradients nx ny sp.2 sp.1 (fun t => u.getD t 0 * w.getD t 0) t).2 (gradients nx ny sp.2 sp.1 (fun t => u.getD t 0 * w.getD t 0) t).1
            (gradients nx ny sp.2 sp.1 (fun t => v.getD t 0 * w.getD t 0) t).2 (gradients nx ny sp.2 sp.1 (fun t => v.getD t 0 * w.getD t 0) t).1 / w.getD t 0 ^ 2)) := by
    obtain ⟨dx, dy⟩ := sp
    unfold viscousDissipation
    rw [hsh, hsp]
    simp only [Flow.sort, hs, ok_bind]
    rw [if_neg (by rw [hlat.size]; push_cast; omega)]
    simp only [Int.toNat_natCast]
    rw [hw1, ok_bind, hu2, ok_bind, hv2, ok_bind, if_neg (by omega)]
  refine ⟨_, _, hr, rfl, hn, hlat, hval, by simp, ?_⟩
  intro i j hi hj
  have ht : j * nx + i < nx * ny := grid_lt hi hj
  have e1 : (j * nx + i) % nx = i := grid_mod hi
  have e2 : (j * nx + i) / nx = j := grid_div hi
  rw [List.getD_eq_getElem?_getD, List.getElem?_map, List.getElem?_range ht]
  simp only [Option.map_some, Option.getD_some, hx.ne', hy.ne', false_or, hw2 i j hi hj]
  split
  · rfl
  · congr 2
    have hU : ∀ a b, a < nx → b < ny → u.getD (b * nx + a) 0 = atNode f.data fl.1 sp x0 y0 co a b := by
      intro a b ha hb; rw [← hval fl.1 a b ha hb, val_of_col hu1]
    have hV : ∀ a b, a < nx → b < ny → v.getD (b * nx + a) 0 = atNode f.data fl.2 sp x0 y0 co a b := by
      intro a b ha hb; rw [← hval fl.2 a b ha hb, val_of_col hv1]
    unfold nodeDiss gradients
    rw [e1, e2]
    simp only
    congr 1
    · exact gradient_congr hnx (fun a ha => by rw [hU a j ha hj, hw2 a j ha hj]) hi
    · exact gradient_congr hny (fun b hb => by rw [hU i b hi hb, hw2 i b hi hb]) hj
    · exact gradient_congr hnx (fun a ha => by rw [hV a j ha hj, hw2 a j ha hj]) hi
    · exact gradient_congr hny (fun b hb => by rw [hV i b hi hb, hw2 i b hi hb]) hj

theorem formula_nonneg {μ : ℚ} (hμ : 0 ≤ μ) (a b c d : ℚ) : 0 ≤ formula μ a b c d := by
  unfold formula
  have h1 : 0 ≤ a ^ 2 + d ^ 2 - (a + d) ^ 2 / 3 := by nlinarith [sq_nonneg (a - d), sq_nonneg (a + d)]
  have h2 := sq_nonneg (c + b)
  positivity

/-- A full grid, from bounded checks of the rows. -/
theorem fullGrid_of_rows (r : Record) (sp : ℚ × ℚ) (x0 y0 : ℚ) (nx ny : ℕ) (co : Label × Label) (n : ℕ) (hn : Flow.size r = n) (hwf : Wf r)
    (hx : co.1 ∈ names r) (hy : co.2 ∈ names r) (hnx : 0 < nx) (hny : 0 < ny)
    (h1 : ∀ i : ℕ, i < nx → ∀ j : ℕ, j < ny → ∃ t : ℕ, t < n ∧ ∀ s : ℕ, s < n → ((val r co.1 s = x0 + sp.1 * (i : ℚ) ∧ val r co.2 s = y0 + sp.2 * (j : ℚ)) ↔ s = t))
    (h2 : ∀ t : ℕ, t < n → ∃ i : ℕ, i < nx ∧ ∃ j : ℕ, j < ny ∧ val r co.1 t = x0 + sp.1 * (i : ℚ) ∧ val r co.2 t = y0 + sp.2 * (j : ℚ)) :
    FullGrid r sp x0 y0 nx ny co := by
  refine ⟨hwf, hx, hy, hnx, hny, ?_, ?_⟩
  · intro i j hi hj
    obtain ⟨t, ht, h⟩ := h1 i hi j hj
    exact ⟨t, ⟨by rw [hn]; exact ht, (h t ht).mpr rfl⟩, fun s hs => (h s (by rw [← hn]; exact hs.1)).mp hs.2⟩
  · intro t ht
    obtain ⟨i, hi, j, hj, h⟩ := h2 t (by rw [← hn]; exact ht)
    exact ⟨i, j, hi, hj, h⟩

end Strata.Sample
