import Verif.Proofs.Sample
import Verif.Proofs.SimpleAverage
import Mathlib.Tactic.ComputeDegree
/-!
# Sampling: centre of mass, inertial energy, viscous dissipation: C40, C41, C42, C43

`val r l t` is the value of field `l` in row `t`; `atNode r l sp x0 y0 co i j` that of the bin at node `(i, j)` of the grid.
-/
namespace Strata.Sample
open Strata Strata.Flow Strata.Average Strata.Resample Strata.Gmx Strata.SimpleAverage Strata.Simple
open Finset

/-! ## C40 -/

/-- The total of a field. -/
theorem total_sum {r : Record} (h : Wf r) {l : Label} {c : List ℚ} (hc : col? r l = some c) : c.sum = ∑ t ∈ range (Flow.size r), val r l t := by
  conv_lhs => rw [eq_map_getD c, list_sum_range, col?_length h hc]
  exact sum_congr rfl fun t _ => by rw [val_of_col hc]

theorem npAverage_eq {r : Record} (h : Wf r) {l m : Label} {c d : List ℚ} (hc : col? r l = some c) (hd : col? r m = some d) :
    npAverage c d = if ∑ t ∈ range (Flow.size r), val r m t = 0 then .error .zeroDivisionError
      else .ok ((∑ t ∈ range (Flow.size r), val r l t * val r m t) / ∑ t ∈ range (Flow.size r), val r m t) := by
  unfold npAverage
  have e : (List.zipWith (· * ·) c d).sum = ∑ t ∈ range (Flow.size r), val r l t * val r m t := by
    conv_lhs => rw [eq_map_getD c, eq_map_getD d, col?_length h hc, col?_length h hd, zipWith_map_range, list_sum_range]
    exact sum_congr rfl fun t _ => by rw [val_of_col hc, val_of_col hd]
  rw [total_sum h hd, e]

/-- **C40, value and error.** For a map with the fields, the centre of mass is the mass-weighted mean along each axis, and
`ZeroDivisionError` is raised iff the total mass is 0. -/
theorem C40_mass_weighted_mean (f : Flow) (m x y : Label) (h : Wf f.data) (hm : m ∈ names f.data) (hx : x ∈ names f.data) (hy : y ∈ names f.data) :
    (∑ t ∈ range (Flow.size f.data), val f.data m t ≠ 0 → centerOfMass f m [x, y] = .ok
      [(∑ t ∈ range (Flow.size f.data), val f.data x t * val f.data m t) / ∑ t ∈ range (Flow.size f.data), val f.data m t,
       (∑ t ∈ range (Flow.size f.data), val f.data y t * val f.data m t) / ∑ t ∈ range (Flow.size f.data), val f.data m t]) ∧
    (centerOfMass f m [x, y] = .error .zeroDivisionError ↔ ∑ t ∈ range (Flow.size f.data), val f.data m t = 0) := by
  obtain ⟨c, hc, hc'⟩ := field_ok hm
  obtain ⟨a, ha, ha'⟩ := field_ok hx
  obtain ⟨b, hb, hb'⟩ := field_ok hy
  have e : centerOfMass f m [x, y] = if ∑ t ∈ range (Flow.size f.data), val f.data m t = 0 then .error .zeroDivisionError else .ok
      [(∑ t ∈ range (Flow.size f.data), val f.data x t * val f.data m t) / ∑ t ∈ range (Flow.size f.data), val f.data m t,
       (∑ t ∈ range (Flow.size f.data), val f.data y t * val f.data m t) / ∑ t ∈ range (Flow.size f.data), val f.data m t] := by
    unfold centerOfMass
    rw [List.mapM_cons, List.mapM_cons, List.mapM_nil, ha', ok_bind, hc', ok_bind, hb', ok_bind, ok_bind, npAverage_eq h ha hc, npAverage_eq h hb hc]
    split <;> rfl
  rw [e]
  refine ⟨fun hne => by rw [if_neg hne], ?_⟩
  split
  · rename_i h0; simp [h0]
  · rename_i h0; simp [h0]

/-- **C40, range.** With non-negative masses the centre of mass lies within the coordinates of the bins. -/
theorem C40_within_range (f : Flow) (m x y : Label) (h : Wf f.data) (hm : m ∈ names f.data) (hx : x ∈ names f.data) (hy : y ∈ names f.data)
    (hpos : ∀ t, t < Flow.size f.data → 0 ≤ val f.data m t) (cx cy : ℚ) (hc : centerOfMass f m [x, y] = .ok [cx, cy])
    (lo hi : ℚ × ℚ) (hlx : ∀ t, t < Flow.size f.data → lo.1 ≤ val f.data x t ∧ val f.data x t ≤ hi.1)
    (hly : ∀ t, t < Flow.size f.data → lo.2 ≤ val f.data y t ∧ val f.data y t ≤ hi.2) :
    (lo.1 ≤ cx ∧ cx ≤ hi.1) ∧ lo.2 ≤ cy ∧ cy ≤ hi.2 := by
  have hne : ∑ t ∈ range (Flow.size f.data), val f.data m t ≠ 0 := by
    intro h0
    rw [(C40_mass_weighted_mean f m x y h hm hx hy).2.mpr h0] at hc
    cases hc
  have hp : 0 < ∑ t ∈ range (Flow.size f.data), val f.data m t :=
    lt_of_le_of_ne (sum_nonneg fun t ht => hpos t (mem_range.mp ht)) (Ne.symm hne)
  rw [(C40_mass_weighted_mean f m x y h hm hx hy).1 hne] at hc
  simp only [Except.ok.injEq, List.cons.injEq, and_true] at hc
  obtain ⟨rfl, rfl⟩ := hc
  have key : ∀ (l : Label) (a b : ℚ), (∀ t, t < Flow.size f.data → a ≤ val f.data l t ∧ val f.data l t ≤ b) →
      a ≤ (∑ t ∈ range (Flow.size f.data), val f.data l t * val f.data m t) / ∑ t ∈ range (Flow.size f.data), val f.data m t ∧
      (∑ t ∈ range (Flow.size f.data), val f.data l t * val f.data m t) / ∑ t ∈ range (Flow.size f.data), val f.data m t ≤ b := by
    intro l a b hab
    rw [le_div_iff₀ hp, div_le_iff₀ hp, mul_sum, mul_sum]
    exact ⟨sum_le_sum fun t ht => mul_le_mul_of_nonneg_right (hab t (mem_range.mp ht)).1 (hpos t (mem_range.mp ht)),
      sum_le_sum fun t ht => mul_le_mul_of_nonneg_right (hab t (mem_range.mp ht)).2 (hpos t (mem_range.mp ht))⟩
  exact ⟨key x _ _ hlx, key y _ _ hly⟩

/-- **C40, translation and scaling.** If `g` has the bins of `f` moved by `(a, b)` and all masses multiplied by `k ≠ 0`, its
centre of mass is that of `f` moved by `(a, b)`. -/
theorem C40_translation_and_scaling (f g : Flow) (m x y : Label) (h : Wf f.data) (hm : m ∈ names f.data) (hx : x ∈ names f.data) (hy : y ∈ names f.data)
    (h' : Wf g.data) (hm' : m ∈ names g.data) (hx' : x ∈ names g.data) (hy' : y ∈ names g.data) (hs : Flow.size g.data = Flow.size f.data)
    (a b k : ℚ) (hk : k ≠ 0) (hv : ∀ t, t < Flow.size f.data → val g.data x t = val f.data x t + a ∧ val g.data y t = val f.data y t + b ∧
      val g.data m t = k * val f.data m t) (cx cy : ℚ) (hc : centerOfMass f m [x, y] = .ok [cx, cy]) :
    centerOfMass g m [x, y] = .ok [cx + a, cy + b] := by
  have hne : ∑ t ∈ range (Flow.size f.data), val f.data m t ≠ 0 := by
    intro h0
    rw [(C40_mass_weighted_mean f m x y h hm hx hy).2.mpr h0] at hc
    cases hc
  rw [(C40_mass_weighted_mean f m x y h hm hx hy).1 hne] at hc
  simp only [Except.ok.injEq, List.cons.injEq, and_true] at hc
  obtain ⟨rfl, rfl⟩ := hc
  have hM : ∑ t ∈ range (Flow.size g.data), val g.data m t = k * ∑ t ∈ range (Flow.size f.data), val f.data m t := by
    rw [hs, mul_sum]
    exact sum_congr rfl fun t ht => (hv t (mem_range.mp ht)).2.2
  rw [(C40_mass_weighted_mean g m x y h' hm' hx' hy').1 (by rw [hM]; exact mul_ne_zero hk hne), hM, hs]
  have key : ∀ (l : Label) (s : ℚ), (∀ t, t < Flow.size f.data → val g.data l t = val f.data l t + s) →
      (∑ t ∈ range (Flow.size f.data), val g.data l t * val g.data m t) / (k * ∑ t ∈ range (Flow.size f.data), val f.data m t) =
      (∑ t ∈ range (Flow.size f.data), val f.data l t * val f.data m t) / (∑ t ∈ range (Flow.size f.data), val f.data m t) + s := by
    intro l s hl
    have : ∑ t ∈ range (Flow.size f.data), val g.data l t * val g.data m t =
        k * (∑ t ∈ range (Flow.size f.data), val f.data l t * val f.data m t) + k * (s * ∑ t ∈ range (Flow.size f.data), val f.data m t) := by
      rw [mul_sum, mul_sum, mul_sum, ← sum_add_distrib]
      exact sum_congr rfl fun t ht => by rw [hl t (mem_range.mp ht), (hv t (mem_range.mp ht)).2.2]; ring
    rw [this]
    field_simp
  rw [key x a fun t ht => (hv t ht).1, key y b fun t ht => (hv t ht).2.1]

def exC : Flow := ⟨[("X", [0, 1, 5]), ("Y", [1, 1, 2]), ("M", [1, 2, 1]), ("U", [1, 0, -2]), ("V", [0, 0, 1])], {}⟩

/-- A map that meets the hypotheses, and one without mass. -/
example : Wf exC.data ∧ "M" ∈ names exC.data ∧ (∀ t, t < Flow.size exC.data → 0 ≤ val exC.data "M" t) ∧ centerOfMass exC = .ok [7 / 4, 5 / 4] ∧
    centerOfMass ⟨[("X", [0, 1]), ("Y", [0, 1]), ("M", [0, 0])], {}⟩ = .error .zeroDivisionError :=
  ⟨⟨by decide, by decide⟩, by decide, by decide +kernel, by decide +kernel, by decide +kernel⟩

/-! ## C41 -/

/-- **C41.** The inertial energy of bin `t` is `M (U² + V²) / 2`; it is non-negative for non-negative mass and zero iff the
bin has no mass or no flow. -/
theorem C41_inertial_energy (f : Flow) (m u v : Label) (h : Wf f.data) (hm : m ∈ names f.data) (hu : u ∈ names f.data) (hv : v ∈ names f.data) :
    ∃ e, inertialEnergy f m (u, v) = .ok e ∧ e.length = Flow.size f.data ∧ ∀ t, t < Flow.size f.data →
      e.getD t 0 = val f.data m t * (val f.data u t ^ 2 + val f.data v t ^ 2) / 2 ∧
      (0 ≤ val f.data m t → 0 ≤ e.getD t 0) ∧
      (e.getD t 0 = 0 ↔ val f.data m t = 0 ∨ (val f.data u t = 0 ∧ val f.data v t = 0)) := by
  obtain ⟨c, hc, hc'⟩ := field_ok hm
  obtain ⟨a, ha, ha'⟩ := field_ok hu
  obtain ⟨b, hb, hb'⟩ := field_ok hv
  have _ := h
  refine ⟨(List.range (Flow.size f.data)).map fun t => 1 / 2 * c.getD t 0 * (a.getD t 0 ^ 2 + b.getD t 0 ^ 2), ?_, by simp, ?_⟩
  · unfold inertialEnergy
    rw [hc', ok_bind, ha', ok_bind, hb', ok_bind]
  · intro t ht
    rw [getD_map_range _ _ _ ht, ← val_of_col hc, ← val_of_col ha, ← val_of_col hb]
    refine ⟨by ring, fun h0 => by positivity, ?_⟩
    rw [mul_eq_zero, mul_eq_zero]
    constructor
    · rintro ((h0 | h0) | h0)
      · norm_num at h0
      · exact Or.inl h0
      · right
        constructor <;> nlinarith [sq_nonneg (val f.data u t), sq_nonneg (val f.data v t)]
    · rintro (h0 | ⟨h1, h2⟩)
      · exact Or.inl (Or.inr h0)
      · right; rw [h1, h2]; ring

example : inertialEnergy exC = .ok [1 / 2, 0, 5 / 2] := by decide +kernel

/-! ## C42 -/

/-- **C42, non-negative.** On a full grid of at least 3 × 3 bins, with viscosity `μ ≥ 0`, the dissipation of every bin is
finite and non-negative (with weights: of every bin whose weight is not 0). -/
theorem C42_nonneg (f : Flow) (μ : ℚ) (hμ : 0 ≤ μ) (sp : ℚ × ℚ) (x0 y0 : ℚ) (nx ny : ℕ) (co fl : Label × Label) (weight : Option Label)
    (h : FullMap f sp x0 y0 nx ny co) (hx : 0 < sp.1) (hy : 0 < sp.2) (hnx : 3 ≤ nx) (hny : 3 ≤ ny) (hu : fl.1 ∈ names f.data) (hv : fl.2 ∈ names f.data)
    (hw : ∀ w, weight = some w → w ∈ names f.data) :
    ∃ g d, viscousDissipation f μ co fl weight = .ok (g, d) ∧ d.length = nx * ny ∧ ∀ t, t < nx * ny →
      (∀ w, weight = some w → val g.data w t ≠ 0) → ∃ v, d.getD t none = some v ∧ 0 ≤ v := by
  obtain ⟨g, d, hr, -, hn, hlat, hval, hlen, hd⟩ := viscous_eq f μ sp x0 y0 nx ny co fl weight h hx hy hnx hny hu hv hw
  refine ⟨g, d, hr, hlen, ?_⟩
  intro t ht hwt
  have hpos : 0 < nx := by omega
  have hi : t % nx < nx := Nat.mod_lt _ hpos
  have hj : t / nx < ny := by rw [Nat.div_lt_iff_lt_mul hpos, Nat.mul_comm]; exact ht
  have e : t / nx * nx + t % nx = t := by rw [Nat.mul_comm]; exact Nat.div_add_mod t nx
  have hdt := hd (t % nx) (t / nx) hi hj
  rw [e, if_neg] at hdt
  · exact ⟨_, hdt, div_nonneg (formula_nonneg hμ _ _ _ _) (sq_nonneg _)⟩
  · cases weight with
    | none => simp
    | some w =>
      have := hwt w rfl
      rw [← e, hval w _ _ hi hj] at this
      exact this

/-- **C42, frame independence.** If the flow `g` is the flow `f` plus a constant velocity (the rows may be in another
order), the dissipation is the same. -/
theorem C42_constant_velocity (f g : Flow) (μ : ℚ) (sp : ℚ × ℚ) (x0 y0 : ℚ) (nx ny : ℕ) (co fl : Label × Label)
    (h : FullMap f sp x0 y0 nx ny co) (h' : FullMap g sp x0 y0 nx ny co) (hx : 0 < sp.1) (hy : 0 < sp.2) (hnx : 3 ≤ nx) (hny : 3 ≤ ny)
    (hu : fl.1 ∈ names f.data) (hv : fl.2 ∈ names f.data) (hu' : fl.1 ∈ names g.data) (hv' : fl.2 ∈ names g.data) (a b : ℚ)
    (hU : ∀ i j, i < nx → j < ny → atNode g.data fl.1 sp x0 y0 co i j = atNode f.data fl.1 sp x0 y0 co i j + a)
    (hV : ∀ i j, i < nx → j < ny → atNode g.data fl.2 sp x0 y0 co i j = atNode f.data fl.2 sp x0 y0 co i j + b) :
    ∃ f' g' d, viscousDissipation f μ co fl = .ok (f', d) ∧ viscousDissipation g μ co fl = .ok (g', d) := by
  obtain ⟨f', d, hr, -, -, -, -, hlen, hd⟩ := viscous_eq f μ sp x0 y0 nx ny co fl none h hx hy hnx hny hu hv (by simp)
  obtain ⟨g', d', hr', -, -, -, -, hlen', hd'⟩ := viscous_eq g μ sp x0 y0 nx ny co fl none h' hx hy hnx hny hu' hv' (by simp)
  have : d = d' := by
    apply List.ext_getElem (by rw [hlen, hlen'])
    intro t h1 h2
    rw [hlen] at h1
    have hpos : 0 < nx := by omega
    have hi : t % nx < nx := Nat.mod_lt _ hpos
    have hj : t / nx < ny := by rw [Nat.div_lt_iff_lt_mul hpos, Nat.mul_comm]; exact h1
    have e : t / nx * nx + t % nx = t := by rw [Nat.mul_comm]; exact Nat.div_add_mod t nx
    have e1 := hd (t % nx) (t / nx) hi hj
    have e2 := hd' (t % nx) (t / nx) hi hj
    rw [e] at e1 e2
    simp only [Option.elim_none, mul_one, one_ne_zero, if_false, one_pow, div_one] at e1 e2
    have hs : nodeDiss μ sp nx ny (fun a b => atNode f.data fl.1 sp x0 y0 co a b) (fun a b => atNode f.data fl.2 sp x0 y0 co a b) (t % nx) (t / nx) =
        nodeDiss μ sp nx ny (fun a b => atNode g.data fl.1 sp x0 y0 co a b) (fun a b => atNode g.data fl.2 sp x0 y0 co a b) (t % nx) (t / nx) := by
      have key : ∀ (n : ℕ) (hn : 3 ≤ n) (s : ℚ) (hs : s ≠ 0) (F G : ℕ → ℚ) (c : ℚ), (∀ k, k < n → G k = F k + c) → ∀ k, k < n → gradient n s F k = gradient n s G k := by
        intro n hn s hs F G c hFG k hk
        rw [gradient_congr hn (f := G) (g := fun k => 1 * F k + c * 1) (fun k hk => by rw [hFG k hk]; ring) hk, gradient_linear, gradient_const n s hs]
        ring
      unfold nodeDiss
      rw [key nx hnx sp.1 hx.ne' _ _ a (fun k hk => hU k _ hk hj) _ hi, key ny hny sp.2 hy.ne' _ _ a (fun k hk => hU _ k hi hk) _ hj,
        key nx hnx sp.1 hx.ne' _ _ b (fun k hk => hV k _ hk hj) _ hi, key ny hny sp.2 hy.ne' _ _ b (fun k hk => hV _ k hi hk) _ hj]
    have : d.getD t none = d'.getD t none := by rw [e1, e2, hs]
    rw [List.getD_eq_getElem?_getD, List.getD_eq_getElem?_getD, List.getElem?_eq_getElem (by rw [hlen]; exact h1), List.getElem?_eq_getElem h2] at this
    simpa using this
  subst this
  exact ⟨f', g', d, hr, hr'⟩

/-- **C42, scaling.** If the flow `g` is `k` times the flow `f`, its dissipation is `k²` times that of `f`. -/
theorem C42_quadratic (f g : Flow) (μ : ℚ) (sp : ℚ × ℚ) (x0 y0 : ℚ) (nx ny : ℕ) (co fl : Label × Label)
    (h : FullMap f sp x0 y0 nx ny co) (h' : FullMap g sp x0 y0 nx ny co) (hx : 0 < sp.1) (hy : 0 < sp.2) (hnx : 3 ≤ nx) (hny : 3 ≤ ny)
    (hu : fl.1 ∈ names f.data) (hv : fl.2 ∈ names f.data) (hu' : fl.1 ∈ names g.data) (hv' : fl.2 ∈ names g.data) (k : ℚ)
    (hU : ∀ i j, i < nx → j < ny → atNode g.data fl.1 sp x0 y0 co i j = k * atNode f.data fl.1 sp x0 y0 co i j)
    (hV : ∀ i j, i < nx → j < ny → atNode g.data fl.2 sp x0 y0 co i j = k * atNode f.data fl.2 sp x0 y0 co i j) :
    ∃ f' g' d d', viscousDissipation f μ co fl = .ok (f', d) ∧ viscousDissipation g μ co fl = .ok (g', d') ∧
      ∀ t, t < nx * ny → ∃ v, d.getD t none = some v ∧ d'.getD t none = some (k ^ 2 * v) := by
  obtain ⟨f', d, hr, -, -, -, -, hlen, hd⟩ := viscous_eq f μ sp x0 y0 nx ny co fl none h hx hy hnx hny hu hv (by simp)
  obtain ⟨g', d', hr', -, -, -, -, hlen', hd'⟩ := viscous_eq g μ sp x0 y0 nx ny co fl none h' hx hy hnx hny hu' hv' (by simp)
  refine ⟨f', g', d, d', hr, hr', ?_⟩
  intro t ht
  have hpos : 0 < nx := by omega
  have hi : t % nx < nx := Nat.mod_lt _ hpos
  have hj : t / nx < ny := by rw [Nat.div_lt_iff_lt_mul hpos, Nat.mul_comm]; exact ht
  have e : t / nx * nx + t % nx = t := by rw [Nat.mul_comm]; exact Nat.div_add_mod t nx
  have e1 := hd (t % nx) (t / nx) hi hj
  have e2 := hd' (t % nx) (t / nx) hi hj
  rw [e] at e1 e2
  simp only [Option.elim_none, mul_one, one_ne_zero, if_false, one_pow, div_one] at e1 e2
  refine ⟨_, e1, ?_⟩
  rw [e2]
  congr 1
  have key : ∀ (n : ℕ) (hn : 3 ≤ n) (s : ℚ) (F G : ℕ → ℚ), (∀ a, a < n → G a = k * F a) → ∀ a, a < n → gradient n s G a = k * gradient n s F a := by
    intro n hn s F G hFG a ha
    rw [gradient_congr hn (f := G) (g := fun a => k * F a + 0 * F a) (fun a ha => by rw [hFG a ha]; ring) ha, gradient_linear]
    ring
  unfold nodeDiss
  rw [key nx hnx sp.1 _ _ (fun a ha => hU a _ ha hj) _ hi, key ny hny sp.2 _ _ (fun b hb => hU _ b hi hb) _ hj,
    key nx hnx sp.1 _ _ (fun a ha => hV a _ ha hj) _ hi, key ny hny sp.2 _ _ (fun b hb => hV _ b hi hb) _ hj]
  unfold formula
  ring

/-! ## C43 -/

open Polynomial in
/-- **C43.** On a full grid of at least 3 × 3 bins, if along every row and every column of bins the velocity components are
polynomials of degree at most 2 (`PU j`, `PV j` along row `j`, `QU i`, `QV i` along column `i`), the dissipation of every
bin, including those at the borders, is computed from the true derivatives.  The flow object afterwards has the same
bins, sorted like the result. -/
theorem C43_exact_for_quadratic_flow (f : Flow) (μ : ℚ) (sp : ℚ × ℚ) (x0 y0 : ℚ) (nx ny : ℕ) (co fl : Label × Label)
    (h : FullMap f sp x0 y0 nx ny co) (hx : 0 < sp.1) (hy : 0 < sp.2) (hnx : 3 ≤ nx) (hny : 3 ≤ ny) (hu : fl.1 ∈ names f.data) (hv : fl.2 ∈ names f.data)
    (PU PV QU QV : ℕ → ℚ[X]) (hdeg : ∀ k, (PU k).natDegree ≤ 2 ∧ (PV k).natDegree ≤ 2 ∧ (QU k).natDegree ≤ 2 ∧ (QV k).natDegree ≤ 2)
    (hU : ∀ i j, i < nx → j < ny → atNode f.data fl.1 sp x0 y0 co i j = (PU j).eval (x0 + sp.1 * (i : ℚ)) ∧
      atNode f.data fl.1 sp x0 y0 co i j = (QU i).eval (y0 + sp.2 * (j : ℚ)))
    (hV : ∀ i j, i < nx → j < ny → atNode f.data fl.2 sp x0 y0 co i j = (PV j).eval (x0 + sp.1 * (i : ℚ)) ∧
      atNode f.data fl.2 sp x0 y0 co i j = (QV i).eval (y0 + sp.2 * (j : ℚ))) :
    ∃ g d, viscousDissipation f μ co fl = .ok (g, d) ∧ g.info = f.info ∧ names g.data = names f.data ∧ Flow.size g.data = nx * ny ∧ d.length = nx * ny ∧
      ∀ i j, i < nx → j < ny →
        val g.data co.1 (j * nx + i) = x0 + sp.1 * (i : ℚ) ∧ val g.data co.2 (j * nx + i) = y0 + sp.2 * (j : ℚ) ∧
        (∀ l, val g.data l (j * nx + i) = atNode f.data l sp x0 y0 co i j) ∧
        ∀ ux uy vx vy : ℚ, ux = (derivative (PU j)).eval (x0 + sp.1 * (i : ℚ)) → uy = (derivative (QU i)).eval (y0 + sp.2 * (j : ℚ)) →
          vx = (derivative (PV j)).eval (x0 + sp.1 * (i : ℚ)) → vy = (derivative (QV i)).eval (y0 + sp.2 * (j : ℚ)) →
          d.getD (j * nx + i) none = some (2 * μ * (ux ^ 2 + vy ^ 2 - (ux + vy) ^ 2 / 3) + μ * (uy + vx) ^ 2) := by
  obtain ⟨g, d, hr, hi, hn, hlat, hval, hlen, hd⟩ := viscous_eq f μ sp x0 y0 nx ny co fl none h hx hy hnx hny hu hv (by simp)
  refine ⟨g, d, hr, hi, hn, hlat.size, hlen, ?_⟩
  intro i j hi hj
  have ht : j * nx + i < nx * ny := grid_lt hi hj
  refine ⟨?_, ?_, fun l => hval l i j hi hj, ?_⟩
  · rw [hlat.x _ ht, grid_mod hi]
  · rw [hlat.y _ ht, grid_div hi]
  · rintro ux uy vx vy rfl rfl rfl rfl
    rw [hd i j hi hj]
    simp only [Option.elim_none, mul_one, one_ne_zero, if_false, one_pow, div_one]
    unfold nodeDiss
    rw [gradient_poly hnx hx.ne' x0 (hdeg j).1 (fun k hk => (hU k j hk hj).1) hi,
      gradient_poly hny hy.ne' y0 (hdeg i).2.2.1 (fun k hk => (hU i k hi hk).2) hj,
      gradient_poly hnx hx.ne' x0 (hdeg j).2.1 (fun k hk => (hV k j hk hj).1) hi,
      gradient_poly hny hy.ne' y0 (hdeg i).2.2.2 (fun k hk => (hV i k hi hk).2) hj]
    unfold formula
    congr 1
    ring

open Polynomial in
/-- **C42, rigid motion.** A flow that is a translation and a rotation has no dissipation. -/
theorem C42_rigid_motion (f : Flow) (μ : ℚ) (sp : ℚ × ℚ) (x0 y0 : ℚ) (nx ny : ℕ) (co fl : Label × Label)
    (h : FullMap f sp x0 y0 nx ny co) (hx : 0 < sp.1) (hy : 0 < sp.2) (hnx : 3 ≤ nx) (hny : 3 ≤ ny) (hu : fl.1 ∈ names f.data) (hv : fl.2 ∈ names f.data)
    (a b ω : ℚ) (hU : ∀ i j, i < nx → j < ny → atNode f.data fl.1 sp x0 y0 co i j = a - ω * (y0 + sp.2 * (j : ℚ)))
    (hV : ∀ i j, i < nx → j < ny → atNode f.data fl.2 sp x0 y0 co i j = b + ω * (x0 + sp.1 * (i : ℚ))) :
    ∃ g d, viscousDissipation f μ co fl = .ok (g, d) ∧ d = List.replicate (nx * ny) (some 0) := by
  obtain ⟨g, d, hr, -, -, -, hlen, hd⟩ := C43_exact_for_quadratic_flow f μ sp x0 y0 nx ny co fl h hx hy hnx hny hu hv
    (fun j => C (a - ω * (y0 + sp.2 * (j : ℚ)))) (fun _ => C b + C ω * X) (fun _ => C a - C ω * X) (fun i => C (b + ω * (x0 + sp.1 * (i : ℚ))))
    (fun k => ⟨by rw [natDegree_C]; omega, by compute_degree; omega, by compute_degree; omega, by rw [natDegree_C]; omega⟩)
    (fun i j hi hj => ⟨by rw [hU i j hi hj]; simp, by rw [hU i j hi hj]; simp⟩)
    (fun i j hi hj => ⟨by rw [hV i j hi hj]; simp, by rw [hV i j hi hj]; simp⟩)
  refine ⟨g, d, hr, ?_⟩
  apply List.ext_getElem (by simp [hlen])
  intro t h1 h2
  rw [hlen] at h1
  have hpos : 0 < nx := by omega
  have hi : t % nx < nx := Nat.mod_lt _ hpos
  have hj : t / nx < ny := by rw [Nat.div_lt_iff_lt_mul hpos, Nat.mul_comm]; exact h1
  have e : t / nx * nx + t % nx = t := by rw [Nat.mul_comm]; exact Nat.div_add_mod t nx
  have := (hd (t % nx) (t / nx) hi hj).2.2.2 0 (-ω) ω 0 (by simp) (by simp) (by simp) (by simp)
  rw [e, List.getD_eq_getElem?_getD, List.getElem?_eq_getElem (by rw [hlen]; exact h1)] at this
  rw [List.getElem_replicate]
  simpa using this

/-! ## Examples -/

/-- A map of 3 × 3 bins, column after column, with the flow U = x², V = y + 2x. -/
def exV : Flow := ⟨[("X", [1, 1, 1, 3, 3, 3, 5, 5, 5]), ("Y", [0, 1, 2, 0, 1, 2, 0, 1, 2]), ("U", [1, 1, 1, 9, 9, 9, 25, 25, 25]),
  ("V", [2, 3, 4, 6, 7, 8, 10, 11, 12]), ("M", [1, 1, 0, 2, 1, 1, 1, 1, 1])], { shape := some (3, 3), spacing := some (2, 1) }⟩

theorem exV_fullMap : FullMap exV (2, 1) 1 0 3 3 :=
  ⟨fullGrid_of_rows exV.data (2, 1) 1 0 3 3 ("X", "Y") 9 rfl ⟨by decide, by decide⟩ (by decide) (by decide) (by decide) (by decide)
    (by decide +kernel) (by decide +kernel), rfl, rfl⟩

/-- It meets the hypotheses of the theorems, and the dissipation is 2μ(4x² + 1 - (2x + 1)²/3) + 4μ. -/
example : FullMap exV (2, 1) 1 0 3 3 ∧ (∀ i : ℕ, i < 3 → ∀ j : ℕ, j < 3 →
      atNode exV.data "U" (2, 1) 1 0 ("X", "Y") i j = (1 + 2 * (i : ℚ)) ^ 2 ∧
      atNode exV.data "V" (2, 1) 1 0 ("X", "Y") i j = (0 + 1 * (j : ℚ)) + 2 * (1 + 2 * (i : ℚ))) ∧
    (viscousDissipation exV 3).toOption.map Prod.snd =
      some ([1, 3, 5, 1, 3, 5, 1, 3, 5].map fun x : ℚ => some (2 * 3 * (4 * x ^ 2 + 1 - (2 * x + 1) ^ 2 / 3) + 3 * 4)) :=
  ⟨exV_fullMap, by decide +kernel, by decide +kernel⟩

/-- With the mass as weight, the bin without mass has no finite value. -/
example : (viscousDissipation exV 3 ("X", "Y") ("U", "V") (some "M")).toOption.map (fun p => p.2.map Option.isSome) =
    some [true, true, true, true, true, true, false, true, true] := by decide +kernel

end Strata.Sample
