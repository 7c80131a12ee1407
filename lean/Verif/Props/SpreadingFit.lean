import Verif.Spec.SpreadingFit
import Verif.Props.Spreading
import Verif.Props.SpreadingText
/-!
# Power law fits: C99–C102
-/
namespace Strata.SpreadingFit
open Strata Strata.Files Strata.PyText Strata.Spreading Strata.Cli Strata.SpreadingText

/-! ## The selected points -/

theorem filter_zip {α : Type} (g : α → Bool) : ∀ (s : List α) (m : List Bool), List.Forall₂ (fun b p => b = g p) m s → ∀ h : α → Bool,
    ((s.zip m).filter fun p => h p.1 && p.2).map Prod.fst = (s.filter g).filter h := by
  intro s m hm
  induction hm with
  | nil => intro h; rfl
  | @cons b p m s hb _ ih =>
    intro h
    subst hb
    rw [List.zip_cons_cons, List.filter_cons, List.filter_cons]
    cases hg : g p
    · simp [hg, ih h]
    · cases hh : h p
      · simp [hg, hh, ih h]
      · simp [hg, hh, ih h]

theorem mask_within (s : Series) (lims : Option ℚ × Option ℚ) : ∀ h : ℚ × ℚ → Bool,
    ((s.zip (indsInLimits s lims.1 lims.2)).filter fun p => h p.1 && p.2).map Prod.fst = (within lims s).filter h := by
  obtain ⟨h1, h2⟩ := C76_fit_range s lims.1 lims.2
  intro h
  by_cases hex : ∃ p ∈ s, InLims lims p.1
  · have := h1 hex
    unfold within
    rw [if_pos hex]
    refine filter_zip _ s _ (this.imp fun b p hb => ?_) h
    by_cases hp : InLims lims p.1
    · rw [decide_eq_true hp]; exact hb.mpr hp
    · rw [decide_eq_false hp]
      cases b
      · rfl
      · exact absurd (hb.mp rfl) hp
  · unfold within
    rw [if_neg hex, h2 hex]
    have := filter_zip (fun _ => true) s (s.map fun _ => true) (List.forall₂_map_left_iff.mpr (List.forall₂_same.mpr fun _ _ => rfl)) h
    rw [this, List.filter_true]

theorem fitPoints_eq (s : Series) (lims : Option ℚ × Option ℚ) : fitPoints s lims = used lims s := by
  unfold fitPoints used
  exact mask_within s lims fun p => decide (0 < p.1)

/-! ## Least squares -/

/-- The sum of squares for the line `a + b * x`. -/
noncomputable def cost (pts : List (ℝ × ℝ)) (q : ℝ × ℝ) : ℝ := (pts.map fun p => (p.2 - (q.1 + q.2 * p.1)) ^ 2).sum

theorem cost_nonneg (pts : List (ℝ × ℝ)) (q : ℝ × ℝ) : 0 ≤ cost pts q := by
  unfold cost
  apply List.sum_nonneg
  intro x hx
  obtain ⟨p, -, rfl⟩ := List.mem_map.mp hx
  positivity

theorem cost_middle (pts : List (ℝ × ℝ)) (q r : ℝ × ℝ) :
    cost pts ((q.1 + r.1) / 2, (q.2 + r.2) / 2) = (cost pts q + cost pts r) / 2 - (pts.map fun p => ((q.1 - r.1) + (q.2 - r.2) * p.1) ^ 2).sum / 4 := by
  unfold cost
  induction pts with
  | nil => simp
  | cons p pts ih =>
    simp only [List.map_cons, List.sum_cons]
    rw [ih]
    ring

theorem cost_unique (pts : List (ℝ × ℝ)) (q r : ℝ × ℝ) (hq : ∀ t, cost pts q ≤ cost pts t) (hr : cost pts r ≤ cost pts q) {p p' : ℝ × ℝ} (hp : p ∈ pts) (hp' : p' ∈ pts)
    (hne : p.1 ≠ p'.1) : r = q := by
  have hm := cost_middle pts q r
  have h1 := hq ((q.1 + r.1) / 2, (q.2 + r.2) / 2)
  have hnn : ∀ x ∈ pts.map fun p => ((q.1 - r.1) + (q.2 - r.2) * p.1) ^ 2, 0 ≤ x := by
    intro x hx
    obtain ⟨t, -, rfl⟩ := List.mem_map.mp hx
    positivity
  have hs : (pts.map fun p => ((q.1 - r.1) + (q.2 - r.2) * p.1) ^ 2).sum ≤ 0 := by linarith
  have hz : ∀ t ∈ pts, (q.1 - r.1) + (q.2 - r.2) * t.1 = 0 := by
    intro t ht
    have := List.single_le_sum hnn _ (List.mem_map_of_mem (f := fun p : ℝ × ℝ => ((q.1 - r.1) + (q.2 - r.2) * p.1) ^ 2) ht)
    have h0 : ((q.1 - r.1) + (q.2 - r.2) * t.1) ^ 2 = 0 := le_antisymm (le_trans this hs) (by positivity)
    exact pow_eq_zero_iff (two_ne_zero) |>.mp h0
  have e1 := hz p hp
  have e2 := hz p' hp'
  have hb : (q.2 - r.2) * (p.1 - p'.1) = 0 := by linarith
  have hb' : q.2 - r.2 = 0 := by
    rcases mul_eq_zero.mp hb with h | h
    · exact h
    · exact absurd (sub_eq_zero.mp h) hne
  rw [hb'] at e1
  ext
  · linarith
  · linarith

/-- The logarithms of points. -/
noncomputable def logs (pts : Series) : List (ℝ × ℝ) := pts.map fun p => (Real.logb 10 p.1, Real.logb 10 p.2)

theorem misfit_eq (pts : Series) (ht : ∀ p ∈ pts, 0 < p.1) {a : ℝ} (ha : 0 < a) (k : ℝ) : misfit pts a k = cost (logs pts) (Real.logb 10 a, k) := by
  unfold misfit cost logs
  rw [List.map_map]
  congr 1
  apply List.map_congr_left
  intro p hp
  have h0 : (0 : ℝ) < p.1 := by exact_mod_cast ht p hp
  simp only [Function.comp]
  rw [Real.logb_mul ha.ne' (Real.rpow_pos_of_pos h0 k).ne', Real.logb_rpow_eq_mul_logb_of_pos h0]

theorem used_pos (lims : Option ℚ × Option ℚ) (s : Series) : ∀ p ∈ used lims s, 0 < p.1 := by
  intro p hp
  unfold used at hp
  simpa using (List.mem_filter.mp hp).2

theorem fitSeries_eq (lsq : Leastsq) (lims : Option ℚ × Option ℚ) (s : Series) (h2 : 2 ≤ (used lims s).length) (hr : ∀ p ∈ used lims s, 0 < p.2) :
    fitSeries lsq lims s = .ok ((10 : ℝ) ^ (lsq ((logs (used lims s)).map fun p => (p.1, some p.2))).1, (lsq ((logs (used lims s)).map fun p => (p.1, some p.2))).2) := by
  unfold fitSeries
  rw [fitPoints_eq, if_neg (by omega)]
  have : ((used lims s).map fun p => (Real.logb 10 p.1, log10 p.2)) = (logs (used lims s)).map fun p => (p.1, some p.2) := by
    unfold logs
    rw [List.map_map]
    apply List.map_congr_left
    intro p hp
    unfold log10
    rw [if_pos (hr p hp)]
    rfl
  rw [this]

/-- **C99.** With at least two points to fit, of positive radius, no power law is closer to the points in the logarithmic plot than the fitted one. -/
theorem C99_best (lsq : Leastsq) (hl : Minimises lsq) (lims : Option ℚ × Option ℚ) (s : Series) (h2 : 2 ≤ (used lims s).length) (hr : ∀ p ∈ used lims s, 0 < p.2) :
    ∃ a k : ℝ, fitSeries lsq lims s = .ok (a, k) ∧ 0 < a ∧ ∀ a' k' : ℝ, 0 < a' → misfit (used lims s) a k ≤ misfit (used lims s) a' k' := by
  refine ⟨_, _, fitSeries_eq lsq lims s h2 hr, Real.rpow_pos_of_pos (by norm_num) _, ?_⟩
  intro a' k' ha
  rw [misfit_eq _ (used_pos lims s) (Real.rpow_pos_of_pos (by norm_num) _), misfit_eq _ (used_pos lims s) ha, Real.logb_rpow (by norm_num) (by norm_num)]
  exact hl (logs (used lims s)) (by simpa [logs] using h2) (Real.logb 10 a') k'

theorem logb_inj {a b : ℝ} (ha : 0 < a) (hb : 0 < b) (h : Real.logb 10 a = Real.logb 10 b) : a = b := Real.logb_injOn_pos (by norm_num) ha hb h

theorem two_of_ne {l : Series} {p q : ℚ × ℚ} (hp : p ∈ l) (hq : q ∈ l) (hne : p.1 ≠ q.1) : 2 ≤ l.length := by
  rcases l with _ | ⟨x, _ | ⟨y, l⟩⟩
  · simp at hp
  · simp at hp hq; exact absurd (by rw [hp, hq]) hne
  · simp

/-- **C99, uniqueness.** If the points have at least two different times, no other power law is as close as the fitted one. -/
theorem C99_unique (lsq : Leastsq) (hl : Minimises lsq) (lims : Option ℚ × Option ℚ) (s : Series) (hr : ∀ p ∈ used lims s, 0 < p.2)
    (hd : ∃ p ∈ used lims s, ∃ q ∈ used lims s, p.1 ≠ q.1) :
    ∃ a k : ℝ, fitSeries lsq lims s = .ok (a, k) ∧ 0 < a ∧ ∀ a' k' : ℝ, 0 < a' → misfit (used lims s) a' k' ≤ misfit (used lims s) a k → a' = a ∧ k' = k := by
  obtain ⟨p, hp, q, hq, hne⟩ := hd
  have h2 : 2 ≤ (used lims s).length := by
    exact two_of_ne hp hq hne
  have hmin : ∀ t, cost (logs (used lims s)) (lsq ((logs (used lims s)).map fun p => (p.1, some p.2))) ≤ cost (logs (used lims s)) t :=
    fun t => hl (logs (used lims s)) (by simpa [logs] using h2) t.1 t.2
  have hfit := fitSeries_eq lsq lims s h2 hr
  generalize lsq ((logs (used lims s)).map fun p => (p.1, some p.2)) = r at hmin hfit
  have hpos : (0 : ℝ) < (10 : ℝ) ^ r.1 := Real.rpow_pos_of_pos (by norm_num) _
  refine ⟨(10 : ℝ) ^ r.1, r.2, hfit, hpos, ?_⟩
  intro a' k' ha hle
  rw [misfit_eq _ (used_pos lims s) hpos, misfit_eq _ (used_pos lims s) ha, Real.logb_rpow (by norm_num) (by norm_num)] at hle
  have hp0 : (0 : ℝ) < p.1 := by exact_mod_cast used_pos lims s p hp
  have hq0 : (0 : ℝ) < q.1 := by exact_mod_cast used_pos lims s q hq
  have hp' : (Real.logb 10 (p.1 : ℝ), Real.logb 10 (p.2 : ℝ)) ∈ logs (used lims s) := List.mem_map.mpr ⟨p, hp, rfl⟩
  have hq' : (Real.logb 10 (q.1 : ℝ), Real.logb 10 (q.2 : ℝ)) ∈ logs (used lims s) := List.mem_map.mpr ⟨q, hq, rfl⟩
  have hne' : Real.logb 10 (p.1 : ℝ) ≠ Real.logb 10 (q.1 : ℝ) := fun h => hne (by exact_mod_cast logb_inj hp0 hq0 h)
  have heq := cost_unique (logs (used lims s)) r (Real.logb 10 a', k') hmin hle hp' hq' hne'
  subst heq
  refine ⟨?_, rfl⟩
  rw [Real.rpow_logb (by norm_num) (by norm_num) ha]

/-- **C99, exact data.** A power law is found from points on its curve, at two different times or more. -/
theorem C99_exact (lsq : Leastsq) (hl : Minimises lsq) (lims : Option ℚ × Option ℚ) (s : Series) (a k : ℝ) (ha : 0 < a)
    (hs : ∀ p ∈ used lims s, (p.2 : ℝ) = a * (p.1 : ℝ) ^ k) (hd : ∃ p ∈ used lims s, ∃ q ∈ used lims s, p.1 ≠ q.1) :
    fitSeries lsq lims s = .ok (a, k) := by
  have hr : ∀ p ∈ used lims s, 0 < p.2 := by
    intro p hp
    have h0 : (0 : ℝ) < p.1 := by exact_mod_cast used_pos lims s p hp
    have : (0 : ℝ) < p.2 := by rw [hs p hp]; positivity
    exact_mod_cast this
  obtain ⟨a', k', h1, ha', h2⟩ := C99_unique lsq hl lims s hr hd
  have hz : misfit (used lims s) a k = 0 := by
    unfold misfit
    rw [List.map_congr_left (g := fun _ => (0 : ℝ)), List.sum_eq_zero]
    · intro x hx
      obtain ⟨p, -, rfl⟩ := List.mem_map.mp hx
      rfl
    · intro p hp
      rw [hs p hp]
      ring
  have hnn : 0 ≤ misfit (used lims s) a' k' := by rw [misfit_eq _ (used_pos lims s) ha']; exact cost_nonneg _ _
  obtain ⟨rfl, rfl⟩ := h2 a k ha (by rw [hz]; exact hnn)
  exact h1

/-- **C99, few points.** Without two points at positive times in the limits there is no fit: `TypeError`. -/
theorem C99_few (lsq : Leastsq) (lims : Option ℚ × Option ℚ) (s : Series) (h : (used lims s).length < 2) : fitSeries lsq lims s = .error .typeError := by
  unfold fitSeries
  rw [fitPoints_eq, if_pos h]

theorem inLims_scale {c : ℚ} (hc : 0 < c) (lims : Option ℚ × Option ℚ) (t : ℚ) :
    InLims (lims.1.map (c * ·), lims.2.map (c * ·)) (c * t) ↔ InLims lims t := by
  obtain ⟨a, b⟩ := lims
  unfold InLims
  cases a <;> cases b <;> simp [mul_le_mul_iff_right₀ hc]

theorem used_scale {c : ℚ} (hc : 0 < c) (d : ℚ) (lims : Option ℚ × Option ℚ) (s : Series) :
    used (lims.1.map (c * ·), lims.2.map (c * ·)) (s.map fun p => (c * p.1, d * p.2)) = (used lims s).map fun p => (c * p.1, d * p.2) := by
  have hw : within (lims.1.map (c * ·), lims.2.map (c * ·)) (s.map fun p => (c * p.1, d * p.2)) = (within lims s).map fun p => (c * p.1, d * p.2) := by
    unfold within
    have he : (∃ p ∈ s.map fun p => (c * p.1, d * p.2), InLims (lims.1.map (c * ·), lims.2.map (c * ·)) p.1) ↔ ∃ p ∈ s, InLims lims p.1 := by
      constructor
      · rintro ⟨p, hp, h⟩
        obtain ⟨q, hq, rfl⟩ := List.mem_map.mp hp
        exact ⟨q, hq, (inLims_scale hc lims q.1).mp h⟩
      · rintro ⟨q, hq, h⟩
        exact ⟨(c * q.1, d * q.2), List.mem_map.mpr ⟨q, hq, rfl⟩, (inLims_scale hc lims q.1).mpr h⟩
    by_cases h : ∃ p ∈ s, InLims lims p.1
    · rw [if_pos h, if_pos (he.mpr h), List.filter_map]
      congr 1
      apply List.filter_congr
      intro p _
      simp only [Function.comp, decide_eq_decide]
      exact inLims_scale hc lims p.1
    · rw [if_neg h, if_neg fun h' => h (he.mp h')]
  unfold used
  rw [hw, List.filter_map]
  congr 1
  apply List.filter_congr
  intro p _
  simp only [Function.comp, decide_eq_decide]
  exact mul_pos_iff_of_pos_left hc

theorem misfit_scale {c d : ℚ} (hc : 0 < c) (hd : 0 < d) (pts : Series) (ht : ∀ p ∈ pts, 0 < p.1) (hr : ∀ p ∈ pts, 0 < p.2) {a : ℝ} (ha : 0 < a) (k : ℝ) :
    misfit (pts.map fun p => (c * p.1, d * p.2)) (d * a * (c : ℝ) ^ (-k)) k = misfit pts a k := by
  unfold misfit
  rw [List.map_map]
  congr 1
  apply List.map_congr_left
  intro p hp
  have h0 : (0 : ℝ) < p.1 := by exact_mod_cast ht p hp
  have h1 : (0 : ℝ) < p.2 := by exact_mod_cast hr p hp
  have hc' : (0 : ℝ) < c := by exact_mod_cast hc
  have hd' : (0 : ℝ) < d := by exact_mod_cast hd
  simp only [Function.comp]
  push_cast
  have e : (d : ℝ) * a * (c : ℝ) ^ (-k) * ((c : ℝ) * p.1) ^ k = d * (a * (p.1 : ℝ) ^ k) := by
    rw [Real.mul_rpow hc'.le h0.le, Real.rpow_neg hc'.le]
    have : (c : ℝ) ^ k ≠ 0 := (Real.rpow_pos_of_pos hc' k).ne'
    field_simp
  rw [e, Real.logb_mul hd'.ne' h1.ne', Real.logb_mul hd'.ne' (by positivity)]
  ring

/-- **C99, units.** Measuring time and radius (and the limits) in other units changes the fit accordingly: the index stays the same. -/
theorem C99_units (lsq : Leastsq) (hl : Minimises lsq) (lims : Option ℚ × Option ℚ) (s : Series) (hr : ∀ p ∈ used lims s, 0 < p.2)
    (hd : ∃ p ∈ used lims s, ∃ q ∈ used lims s, p.1 ≠ q.1) (c d : ℚ) (hc : 0 < c) (hd0 : 0 < d) :
    ∃ a k : ℝ, fitSeries lsq lims s = .ok (a, k) ∧
      fitSeries lsq (lims.1.map (c * ·), lims.2.map (c * ·)) (s.map fun p => (c * p.1, d * p.2)) = .ok (d * a * (c : ℝ) ^ (-k), k) := by
  obtain ⟨a, k, h1, ha, h2⟩ := C99_unique lsq hl lims s hr hd
  refine ⟨a, k, h1, ?_⟩
  have hu := used_scale hc d lims s
  have hc' : (0 : ℝ) < c := by exact_mod_cast hc
  have hd' : (0 : ℝ) < d := by exact_mod_cast hd0
  obtain ⟨a', k', h1', ha', h2'⟩ := C99_unique lsq hl (lims.1.map (c * ·), lims.2.map (c * ·)) (s.map fun p => (c * p.1, d * p.2))
    (by rw [hu]; intro p hp; obtain ⟨q, hq, rfl⟩ := List.mem_map.mp hp; exact mul_pos hd0 (hr q hq))
    (by
      rw [hu]
      obtain ⟨p, hp, q, hq, hne⟩ := hd
      exact ⟨_, List.mem_map.mpr ⟨p, hp, rfl⟩, _, List.mem_map.mpr ⟨q, hq, rfl⟩, fun h => hne (mul_left_cancel₀ hc.ne' h)⟩)
  rw [hu] at h2'
  obtain ⟨e1, e2⟩ : a' / (d * (c : ℝ) ^ (-k')) = a ∧ k' = k := by
    have hX : (0 : ℝ) < d * (c : ℝ) ^ (-k') := by positivity
    apply h2 _ _ (by positivity)
    by_contra hlt
    push Not at hlt
    have e' := misfit_scale hc hd0 (used lims s) (used_pos lims s) hr (a := a' / (d * (c : ℝ) ^ (-k'))) (by positivity) k'
    rw [show (d : ℝ) * (a' / (d * (c : ℝ) ^ (-k'))) * (c : ℝ) ^ (-k') = a' by field_simp] at e'
    have e := misfit_scale hc hd0 (used lims s) (used_pos lims s) hr ha k
    obtain ⟨e3, e4⟩ := h2' (d * a * (c : ℝ) ^ (-k)) k (by positivity) (by rw [e, e']; exact hlt.le)
    subst e4
    rw [← e', ← e3, e] at hlt
    exact lt_irrefl _ hlt
  subst e2
  rw [h1', ← e1]
  congr 2
  field_simp

/-- **C99, order.** The order of the points does not matter. -/
theorem C99_order (lsq : Leastsq) (hl : Minimises lsq) (lims : Option ℚ × Option ℚ) (s s' : Series) (hp : s.Perm s') (hr : ∀ p ∈ used lims s, 0 < p.2)
    (hd : ∃ p ∈ used lims s, ∃ q ∈ used lims s, p.1 ≠ q.1) : fitSeries lsq lims s' = fitSeries lsq lims s := by
  have hu : (used lims s).Perm (used lims s') := by
    unfold used
    apply List.Perm.filter
    unfold within
    by_cases h : ∃ p ∈ s, InLims lims p.1
    · have h' : ∃ p ∈ s', InLims lims p.1 := by obtain ⟨p, h1, h2⟩ := h; exact ⟨p, hp.mem_iff.mp h1, h2⟩
      rw [if_pos h, if_pos h']
      exact hp.filter _
    · have h' : ¬ ∃ p ∈ s', InLims lims p.1 := by rintro ⟨p, h1, h2⟩; exact h ⟨p, hp.mem_iff.mpr h1, h2⟩
      rw [if_neg h, if_neg h']
      exact hp
  obtain ⟨a, k, h1, ha, h2⟩ := C99_unique lsq hl lims s hr hd
  obtain ⟨a', k', h1', ha', h2'⟩ := C99_best lsq hl lims s' (by
      obtain ⟨p, hp, q, hq, hne⟩ := hd
      rw [← hu.length_eq]
      exact two_of_ne hp hq hne) (fun p h => hr p (hu.mem_iff.mpr h))
  have hm : ∀ a k, misfit (used lims s') a k = misfit (used lims s) a k := fun a k => by
    unfold misfit
    exact (hu.map _).symm.sum_eq
  obtain ⟨rfl, rfl⟩ := h2 a' k' ha' (by rw [← hm, ← hm]; exact h2' a k ha)
  rw [h1, h1']

/-! A solver as assumed exists. -/

theorem cost_expand (pts : List (ℝ × ℝ)) (q t : ℝ × ℝ) : cost pts t = cost pts q + (pts.map fun p => ((q.1 - t.1) + (q.2 - t.2) * p.1) ^ 2).sum +
    2 * ((q.1 - t.1) * (pts.map fun p => p.2 - (q.1 + q.2 * p.1)).sum + (q.2 - t.2) * (pts.map fun p => p.1 * (p.2 - (q.1 + q.2 * p.1))).sum) := by
  unfold cost
  induction pts with
  | nil => simp
  | cons p pts ih =>
    simp only [List.map_cons, List.sum_cons]
    rw [ih]
    ring

theorem cost_min (pts : List (ℝ × ℝ)) (q : ℝ × ℝ) (h1 : (pts.map fun p => p.2 - (q.1 + q.2 * p.1)).sum = 0) (h2 : (pts.map fun p => p.1 * (p.2 - (q.1 + q.2 * p.1))).sum = 0)
    (t : ℝ × ℝ) : cost pts q ≤ cost pts t := by
  rw [cost_expand pts q t, h1, h2]
  have : 0 ≤ (pts.map fun p => ((q.1 - t.1) + (q.2 - t.2) * p.1) ^ 2).sum := by
    apply List.sum_nonneg
    intro x hx
    obtain ⟨p, -, rfl⟩ := List.mem_map.mp hx
    positivity
  linarith

theorem sum_residual (pts : List (ℝ × ℝ)) (a b : ℝ) : (pts.map fun p => p.2 - (a + b * p.1)).sum = (pts.map Prod.snd).sum - a * pts.length - b * (pts.map Prod.fst).sum := by
  induction pts with
  | nil => simp
  | cons p pts ih =>
    simp only [List.map_cons, List.sum_cons, List.length_cons]
    rw [ih]
    push_cast
    ring

theorem sum_residual' (pts : List (ℝ × ℝ)) (a b : ℝ) : (pts.map fun p => p.1 * (p.2 - (a + b * p.1))).sum =
    (pts.map fun p => p.1 * p.2).sum - a * (pts.map Prod.fst).sum - b * (pts.map fun p => p.1 ^ 2).sum := by
  induction pts with
  | nil => simp
  | cons p pts ih =>
    simp only [List.map_cons, List.sum_cons]
    rw [ih]
    ring

theorem sum_deviation (pts : List (ℝ × ℝ)) (m : ℝ) : (pts.map fun p => (p.1 - m) ^ 2).sum = (pts.map fun p => p.1 ^ 2).sum - 2 * m * (pts.map Prod.fst).sum + m ^ 2 * pts.length := by
  induction pts with
  | nil => simp
  | cons p pts ih =>
    simp only [List.map_cons, List.sum_cons, List.length_cons]
    rw [ih]
    push_cast
    ring

/-- The textbook formula of linear regression. -/
noncomputable def regression (pts : List (ℝ × ℝ)) : ℝ × ℝ :=
  let n : ℝ := pts.length
  let sx := (pts.map Prod.fst).sum
  let sy := (pts.map Prod.snd).sum
  let D := n * (pts.map fun p => p.1 ^ 2).sum - sx ^ 2
  if D = 0 then (sy / n, 0)
  else
    let b := (n * (pts.map fun p => p.1 * p.2).sum - sx * sy) / D
    ((sy - b * sx) / n, b)

theorem regression_min (pts : List (ℝ × ℝ)) (h : 0 < pts.length) (t : ℝ × ℝ) : cost pts (regression pts) ≤ cost pts t := by
  have hn : (0 : ℝ) < pts.length := by exact_mod_cast h
  unfold regression
  simp only
  by_cases hD : (pts.length : ℝ) * (pts.map fun p => p.1 ^ 2).sum - (pts.map Prod.fst).sum ^ 2 = 0
  · rw [if_pos hD]
    have hx : ∀ p ∈ pts, p.1 = (pts.map Prod.fst).sum / pts.length := by
      have h0 : (pts.map fun p => (p.1 - (pts.map Prod.fst).sum / pts.length) ^ 2).sum = 0 := by
        rw [sum_deviation]
        field_simp
        linarith
      intro p hp
      have hnn : ∀ x ∈ pts.map fun p => (p.1 - (pts.map Prod.fst).sum / pts.length) ^ 2, 0 ≤ x := by
        intro x hx
        obtain ⟨t, -, rfl⟩ := List.mem_map.mp hx
        positivity
      have := List.single_le_sum hnn _ (List.mem_map_of_mem (f := fun p : ℝ × ℝ => (p.1 - (pts.map Prod.fst).sum / pts.length) ^ 2) hp)
      rw [h0] at this
      have h2 := le_antisymm this (by positivity)
      exact sub_eq_zero.mp (pow_eq_zero_iff two_ne_zero |>.mp h2)
    have h1 : (pts.map fun p => p.2 - ((pts.map Prod.snd).sum / pts.length + 0 * p.1)).sum = 0 := by
      rw [sum_residual pts ((pts.map Prod.snd).sum / pts.length) 0]
      field_simp
      ring
    refine cost_min pts _ h1 ?_ t
    rw [List.map_congr_left (g := fun p => (pts.map Prod.fst).sum / pts.length * (p.2 - ((pts.map Prod.snd).sum / pts.length + 0 * p.1)))
      (fun p hp => by rw [← hx p hp]), List.sum_map_mul_left, h1, mul_zero]
  · rw [if_neg hD]
    refine cost_min pts _ ?_ ?_ t
    · simp only
      rw [sum_residual]
      field_simp
      ring
    · simp only
      rw [sum_residual']
      generalize (pts.map fun p => p.1 * p.2).sum = sxy at *
      generalize (pts.map fun p => p.1 ^ 2).sum = sxx at *
      generalize (pts.map Prod.fst).sum = sx at *
      generalize (pts.map Prod.snd).sum = sy at *
      field_simp
      ring

/-- Linear regression as solver. -/
noncomputable def exLsq : Leastsq := fun pts => regression (pts.map fun p => (p.1, p.2.getD 0))

/-- It is as assumed of `leastsq`. -/
theorem exLsq_minimises : Minimises exLsq := by
  intro pts h2 a b
  have : exLsq (pts.map fun p => (p.1, some p.2)) = regression pts := by
    unfold exLsq
    rw [List.map_map]
    congr 1
    exact (List.map_congr_left fun p _ => rfl).trans (List.map_id _)
  simp only [this]
  exact regression_min pts (by omega) (a, b)

/-- A square root law `r = 2 * t^(1/2)`, with the impact and an early outlier. -/
def exSeries : Series := [(0, 0), (1 / 4, 7), (1, 2), (4, 4), (9, 6)]

/-- It is found by a fit from time 1. -/
example : fitSeries exLsq (some 1, none) exSeries = .ok (2, 1 / 2) := by
  refine C99_exact exLsq exLsq_minimises _ _ 2 (1 / 2) (by norm_num) ?_ ⟨(1, 2), by decide +kernel, (4, 4), by decide +kernel, by norm_num⟩
  rw [show used (some 1, none) exSeries = [(1, 2), (4, 4), (9, 6)] by decide +kernel]
  intro p hp
  simp only [List.mem_cons, List.not_mem_nil, or_false] at hp
  rcases hp with rfl | rfl | rfl
  · norm_num
  · rw [← Real.sqrt_eq_rpow, show (((4 : ℚ), (4 : ℚ)).1 : ℝ) = 2 ^ 2 by norm_num, Real.sqrt_sq (by norm_num)]; norm_num
  · rw [← Real.sqrt_eq_rpow, show (((9 : ℚ), (6 : ℚ)).1 : ℝ) = 3 ^ 2 by norm_num, Real.sqrt_sq (by norm_num)]; norm_num

/-- Too few points: only one in the limits, or none after the impact. -/
example : (used (some 8, none) exSeries).length = 1 ∧ (used (some 20, none) exSeries).length = 4 ∧ (used (none, some 0) exSeries).length = 0 := by
  refine ⟨?_, ?_, ?_⟩ <;> decide +kernel

/-! ## C100 -/

theorem fittingParameters_ok (lsq : Leastsq) (lims : Option ℚ × Option ℚ) (data : List NamedSeries) (h : ∀ s ∈ data, 2 ≤ (used lims s.2).length) :
    ∃ params, fittingParameters lsq lims data = .ok params ∧ List.Forall₂ (fun s p => fitSeries lsq lims s.2 = .ok p) data params := by
  unfold fittingParameters
  induction data with
  | nil => exact ⟨[], rfl, .nil⟩
  | cons s data ih =>
    obtain ⟨ps, h1, h2⟩ := ih fun t ht => h t (by simp [ht])
    have hs : ∃ p, fitSeries lsq lims s.2 = .ok p := by
      unfold fitSeries
      rw [fitPoints_eq, if_neg (by have := h s (by simp); omega)]
      exact ⟨_, rfl⟩
    obtain ⟨p, hp⟩ := hs
    exact ⟨p :: ps, by rw [List.mapM_cons, hp, h1]; rfl, .cons hp h2⟩

theorem fittedSeries_points (fmt : ℝ → Text) (outLims : Option ℚ × Option ℚ) (s : NamedSeries) (p : ℝ × ℝ) :
    (fittedSeries fmt outLims s p).points = (within outLims s.2).map fun q => (q.1, power p.1 p.2 q.1) := by
  unfold fittedSeries
  simp only
  have := mask_within s.2 outLims fun _ => true
  simp only [Bool.true_and, List.filter_true] at this
  rw [← this, List.map_map]
  rfl

/-- **C100.** If every series has at least two points to fit, `fit_spreading_data` returns one pair of parameters per series in the same order, that of its own fit, and saves to the
given file one curve per series: at exactly the times of the series in the output limits (all if there are none), at positive times with the radius of the power law, named by the
series and its parameters. (Missing: shorter series, see `C100_short_counterexample`, and times before the impact, see `C100_early_counterexample`.) -/
theorem C100_curves_partial (lsq : Leastsq) (fmt : ℝ → Text) (data : List NamedSeries) (lims outLims : Option ℚ × Option ℚ) (path : Text) (o : FigOpts)
    (h : ∀ s ∈ data, 2 ≤ (used lims s.2).length) :
    ∃ params fitted effects, fitSpreading lsq fmt data lims outLims (some path) o = .ok (params, .write path fitted :: effects) ∧
      params.length = data.length ∧ fitted.length = data.length ∧
      ∀ i (hi : i < data.length) (hp : i < params.length) (hf : i < fitted.length), fitSeries lsq lims data[i].2 = .ok params[i] ∧
        fitted[i].name = data[i].1 ++ " a=".toList ++ fmt params[i].1 ++ ", k=".toList ++ fmt params[i].2 ∧
        fitted[i].points.map Prod.fst = (within outLims data[i].2).map Prod.fst ∧
        ∀ q ∈ fitted[i].points, 0 < q.1 → q.2 = .num (params[i].1 * (q.1 : ℝ) ^ params[i].2) := by
  obtain ⟨params, h1, h2⟩ := fittingParameters_ok lsq lims data h
  refine ⟨params, fittedData fmt outLims params data, if o.show_ then decorateGraph o (fittedData fmt outLims params data) else [], ?_, h2.length_eq.symm, ?_, ?_⟩
  · unfold fitSpreading
    rw [h1, Gmx.ok_bind]
    rfl
  · unfold fittedData
    rw [List.length_zipWith, h2.length_eq]
    simp
  · intro i hi hp hf
    have e : (fittedData fmt outLims params data)[i] = fittedSeries fmt outLims data[i] params[i] := by
      exact List.getElem_zipWith
    rw [e]
    refine ⟨(List.forall₂_iff_get.mp h2).2 i hi hp, rfl, ?_, ?_⟩
    · rw [fittedSeries_points, List.map_map]
      rfl
    · intro q hq hpos
      rw [fittedSeries_points] at hq
      obtain ⟨r, -, rfl⟩ := List.mem_map.mp hq
      unfold power
      rw [if_pos hpos]

/-- **C100, counterexample: short series.** One series with fewer than two points to fit, and no series is fitted and nothing saved: `TypeError`. -/
theorem C100_short_counterexample (lsq : Leastsq) (fmt : ℝ → Text) (data : List NamedSeries) (lims outLims : Option ℚ × Option ℚ) (save : Option Text) (o : FigOpts)
    (h : ∃ s ∈ data, (used lims s.2).length < 2) : fitSpreading lsq fmt data lims outLims save o = .error .typeError := by
  have : fittingParameters lsq lims data = .error .typeError := by
    unfold fittingParameters
    obtain ⟨s, hs, hlt⟩ := h
    induction data with
    | nil => simp at hs
    | cons t data ih =>
      rw [List.mapM_cons]
      by_cases ht : (used lims t.2).length < 2
      · rw [C99_few lsq lims t.2 ht]; rfl
      · rcases List.mem_cons.mp hs with rfl | hs
        · exact absurd hlt ht
        · obtain ⟨ps, h1, h2⟩ := fittingParameters_ok lsq lims [t] (by simpa using not_lt.mp ht)
          obtain ⟨p, hp⟩ : ∃ p, fitSeries lsq lims t.2 = .ok p := by
            cases h2 with
            | cons hp _ => exact ⟨_, hp⟩
          rw [hp, ih hs]
          rfl
  unfold fitSpreading
  rw [this]
  rfl

/-- **C100, counterexample: times before the impact** (as in synchronised data) are kept: there is no radius unless the index is an integer, and at time zero it is infinite if the index is negative. -/
theorem C100_early_counterexample (fmt : ℝ → Text) (outLims : Option ℚ × Option ℚ) (s : NamedSeries) (a k : ℝ) (p : ℚ × ℚ) (hp : p ∈ s.2) (hin : InLims outLims p.1) :
    (p.1 < 0 → (∀ n : ℤ, k ≠ n) → (p.1, Power.nan) ∈ (fittedSeries fmt outLims s (a, k)).points) ∧
    (p.1 = 0 → k < 0 → (p.1, Power.inf) ∈ (fittedSeries fmt outLims s (a, k)).points) := by
  rw [fittedSeries_points]
  have hw : p ∈ within outLims s.2 := by
    unfold within
    rw [if_pos ⟨p, hp, hin⟩, List.mem_filter]
    exact ⟨hp, by simpa using hin⟩
  constructor
  · intro h0 hk
    refine List.mem_map.mpr ⟨p, hw, ?_⟩
    unfold power
    rw [if_neg (by linarith), if_neg h0.ne, if_neg (by rintro ⟨n, hn⟩; exact hk n hn)]
  · intro h0 hk
    refine List.mem_map.mpr ⟨p, hw, ?_⟩
    unfold power
    rw [if_neg (by linarith), if_pos h0, if_pos hk]

/-- Two series to fit; and with a third one that is too short. -/
example : (∀ s ∈ [("a.xvg.1".toList, exSeries), ("b.xvg.1".toList, exSeries.drop 3)], 2 ≤ (used (none, none) (s : NamedSeries).2).length) ∧
    (∃ s ∈ [("a.xvg.1".toList, exSeries), ("b.xvg.1".toList, exSeries.drop 4)], (used (none, none) (s : NamedSeries).2).length < 2) := by
  refine ⟨?_, ?_⟩ <;> decide +kernel

/-! ## C101 -/

/-- **C101, drawing.** `view_spreading`, given `save_xvg`: the scaled and synchronised data are written exactly if a path is given; the figure is drawn, with all series, if it is to be shown, or
saved and there are data; it is saved exactly to the given path and shown exactly if asked for. (Missing: `save_xvg` not given, see `C101_view_counterexample`.) -/
theorem C101_view_partial (combine : List NamedSeries → Except Err (List NamedSeries)) (data synced : List NamedSeries) (hc : combine data = .ok synced) (path : Option Text) (o : FigOpts)
    (hp : path ≠ some []) (hd : data ≠ []) :
    ∃ effects, viewSpreading combine data (some path) o = .ok effects ∧
      (∀ p d, .write p d ∈ effects ↔ path = some p ∧ d = synced) ∧
      (∀ p, .savefig p ∈ effects ↔ o.saveFig = some p) ∧
      (.showfig ∈ effects ↔ o.show_ = true) ∧
      (∀ d, .draw d ∈ effects ↔ d = synced ∧ (o.show_ = true ∨ o.saveFig ≠ none)) := by
  have hl : 0 < data.length := List.length_pos_iff.mpr hd
  obtain ⟨sf, sh, cl⟩ := o
  refine ⟨_, by unfold viewSpreading; rw [hc, Gmx.ok_bind]; rfl, ?_, ?_, ?_, ?_⟩
  all_goals
    unfold decorateGraph
    rcases path with _ | p0 <;> rcases sf with _ | f0 <;> cases sh <;> cases cl <;> simp [hl] <;> (try simp at hp) <;> (try simp [hp]) <;> (try tauto)
  all_goals
    first
    | (intro p d; constructor <;> rintro ⟨rfl, rfl⟩ <;> simp)
    | (intro p; constructor <;> rintro rfl <;> rfl)

/-- **C101, drawing without series.** If no series was read, an empty figure is drawn exactly if it is to be shown, and only then saved: nothing is drawn, saved or shown otherwise. -/
theorem C101_view_no_series_partial (combine : List NamedSeries → Except Err (List NamedSeries)) (synced : List NamedSeries) (hc : combine [] = .ok synced) (path : Option Text) (o : FigOpts)
    (hp : path ≠ some []) :
    ∃ effects, viewSpreading combine [] (some path) o = .ok effects ∧
      (∀ p d, .write p d ∈ effects ↔ path = some p ∧ d = synced) ∧
      (∀ p, .savefig p ∈ effects ↔ o.show_ = true ∧ o.saveFig = some p) ∧
      (.showfig ∈ effects ↔ o.show_ = true) ∧
      (∀ d, .draw d ∈ effects ↔ d = synced ∧ o.show_ = true) := by
  obtain ⟨sf, sh, cl⟩ := o
  refine ⟨_, by unfold viewSpreading; rw [hc, Gmx.ok_bind]; rfl, ?_, ?_, ?_, ?_⟩
  all_goals
    unfold decorateGraph
    rcases path with _ | p0 <;> rcases sf with _ | f0 <;> cases sh <;> cases cl <;> simp <;> (try simp at hp) <;> (try simp [hp]) <;> (try tauto)
  all_goals
    first
    | (intro p d; constructor <;> rintro ⟨rfl, rfl⟩ <;> simp)
    | (intro p; constructor <;> rintro rfl <;> rfl)

/-- **C101, counterexample: view.** `save_xvg` is documented as optional, but without it nothing is drawn or saved, whatever the data: `KeyError`. -/
theorem C101_view_counterexample (combine : List NamedSeries → Except Err (List NamedSeries)) (data synced : List NamedSeries) (hc : combine data = .ok synced) (o : FigOpts) :
    viewSpreading combine data none o = .error .keyError := by
  unfold viewSpreading
  rw [hc]
  rfl

/-- **C101, fits.** `fit_spreading_data` writes the curves exactly if a path is given, and with `show` draws, saves and shows the figure as asked for. (Missing: figures that are saved but not shown, see
`C101_fit_counterexample`.) -/
theorem C101_fit_partial (lsq : Leastsq) (fmt : ℝ → Text) (data : List NamedSeries) (lims outLims : Option ℚ × Option ℚ) (path : Option Text) (o : FigOpts)
    (h : ∀ s ∈ data, 2 ≤ (used lims s.2).length) (hs : o.show_ = true) :
    ∃ params effects, fitSpreading lsq fmt data lims outLims path o = .ok (params, effects) ∧
      (∀ p d, .write p d ∈ effects ↔ path = some p ∧ d = fittedData fmt outLims params data) ∧
      (∀ p, .savefig p ∈ effects ↔ o.saveFig = some p) ∧
      .showfig ∈ effects ∧
      (∀ d, .draw d ∈ effects ↔ d = fittedData fmt outLims params data) := by
  obtain ⟨params, h1, -⟩ := fittingParameters_ok lsq lims data h
  obtain ⟨sf, sh, cl⟩ := o
  simp only at hs
  subst hs
  refine ⟨params, _, by unfold fitSpreading; rw [h1, Gmx.ok_bind], ?_, ?_, ?_, ?_⟩
  all_goals
    unfold decorateGraph
    rcases path with _ | p0 <;> rcases sf with _ | f0 <;> cases cl <;> simp
  all_goals
    first
    | (intro p d; constructor <;> rintro ⟨rfl, rfl⟩ <;> simp)
    | (intro p; constructor <;> rintro rfl <;> rfl)

/-- **C101, counterexample: fits.** If the figure of a fit is not shown it is not saved either, even if asked for, whatever the data. -/
theorem C101_fit_counterexample (lsq : Leastsq) (fmt : ℝ → Text) (data : List NamedSeries) (lims outLims : Option ℚ × Option ℚ) (path : Option Text) (fig : Text) (clf : Bool)
    (params : List (ℝ × ℝ)) (effects : List (Effect (List Fitted)))
    (h : fitSpreading lsq fmt data lims outLims path ⟨some fig, false, clf⟩ = .ok (params, effects)) : ∀ p, .savefig p ∉ effects := by
  unfold fitSpreading at h
  obtain ⟨ps, h1, h2⟩ := Simple.bind_eq_ok h
  simp only [Bool.false_eq_true, if_false, List.append_nil, Except.ok.injEq, Prod.mk.injEq] at h2
  intro p hp
  rw [← h2.2] at hp
  cases path <;> simp at hp

/-- The hypotheses of the counterexample hold: the fit works, with a path for the figure. -/
example : ∃ params effects, fitSpreading exLsq (fun _ => "0".toList) [("a.xvg.1".toList, exSeries)] (none, none) (none, none) none ⟨some "a.png".toList, false, true⟩ = .ok (params, effects) := by
  obtain ⟨params, h1, -⟩ := fittingParameters_ok exLsq (none, none) [("a.xvg.1".toList, exSeries)] (by decide +kernel)
  exact ⟨params, _, by unfold fitSpreading; rw [h1, Gmx.ok_bind]⟩

/-! ## C102 -/

theorem dropWhile_prefix {p : Char → Bool} (a b : Text) (ha : ∀ c ∈ a, p c = true) (hb : ∀ c ∈ b.head?, p c = false) : (a ++ b).dropWhile p = b := by
  induction a with
  | nil =>
    cases b with
    | nil => rfl
    | cons c b => rw [List.nil_append, List.dropWhile_cons_of_neg]; simpa using hb c (by simp)
  | cons c a ih => rw [List.cons_append, List.dropWhile_cons_of_pos (ha c (by simp))]; exact ih fun d hd => ha d (by simp [hd])

theorem stripChars_name (name rest : Text) (h1 : ' ' ∉ name) : stripChars name (name ++ ' ' :: rest) = ((' ' :: rest).reverse.dropWhile (· ∈ name)).reverse := by
  unfold stripChars
  rw [dropWhile_prefix name (' ' :: rest) (fun c hc => by simpa using hc) (fun c hc => by simp at hc; subst hc; simpa using h1)]

/-- The text of the parameters of a fit. -/
def paramText (a k : Text) : Text := "a=".toList ++ a ++ ", k=".toList ++ k

/-- **C102.** The label of a fit shows its parameters if the name of the series contains no space and not the last digit of the index. (Missing: other names, see `C102_counterexample`.) -/
theorem C102_label_partial (name a k k' : Text) (d : Char) (hk : k = k' ++ [d]) (hsp : ' ' ∉ name) (hd : d ∉ name) (hds : isSpace d = false) :
    fitLabel (name ++ " a=".toList ++ a ++ ", k=".toList ++ k) name = paramText a k := by
  have e : name ++ " a=".toList ++ a ++ ", k=".toList ++ k = name ++ ' ' :: paramText a k := by simp [paramText]
  unfold fitLabel
  rw [e, stripChars_name name _ hsp]
  have hrev : (' ' :: paramText a k).reverse = d :: (' ' :: ("a=".toList ++ a ++ ", k=".toList ++ k')).reverse := by
    simp [paramText, hk]
  rw [hrev, List.dropWhile_cons_of_neg (by simpa using hd), ← hrev, List.reverse_reverse]
  unfold Cli.strip
  rw [List.dropWhile_cons_of_pos (by decide), show (paramText a k) = 'a' :: ('=' :: a ++ ", k=".toList ++ k) from rfl, List.dropWhile_cons_of_neg (by decide)]
  have hrev' : ('a' :: ('=' :: a ++ ", k=".toList ++ k)).reverse = d :: ('a' :: ('=' :: a ++ ", k=".toList ++ k')).reverse := by
    simp [hk]
  rw [hrev', List.dropWhile_cons_of_neg (by simpa using hds), ← hrev', List.reverse_reverse]

theorem length_strip (s : Text) : (Cli.strip s).length ≤ s.length := by
  unfold Cli.strip
  rw [List.length_reverse]
  exact ((List.dropWhile_sublist _).length_le.trans (by rw [List.length_reverse])).trans (List.dropWhile_sublist _).length_le

/-- **C102, counterexample.** Whenever the last digit of the index occurs anywhere in the name of the series, as it does for an index ending with 1 for every series read first from a file (`….1`), the label
loses it: it is not that of the parameters. -/
theorem C102_counterexample (name a k k' : Text) (d : Char) (hk : k = k' ++ [d]) (hsp : ' ' ∉ name) (hd : d ∈ name) :
    fitLabel (name ++ " a=".toList ++ a ++ ", k=".toList ++ k) name ≠ paramText a k := by
  have e : name ++ " a=".toList ++ a ++ ", k=".toList ++ k = name ++ ' ' :: paramText a k := by simp [paramText]
  have hrev : (' ' :: paramText a k).reverse = d :: (' ' :: ("a=".toList ++ a ++ ", k=".toList ++ k')).reverse := by
    simp [paramText, hk]
  intro h
  unfold fitLabel at h
  rw [e, stripChars_name name _ hsp, hrev, List.dropWhile_cons_of_pos (by simpa using hd)] at h
  -- the stripped text begins with a space or is empty, and is shorter than the parameters and a space
  have hlen := congrArg List.length h
  set w := (List.dropWhile (· ∈ name) (' ' :: ("a=".toList ++ a ++ ", k=".toList ++ k')).reverse).reverse with hw
  have hpre : w <+: ' ' :: ("a=".toList ++ a ++ ", k=".toList ++ k') := by
    rw [hw, ← List.reverse_suffix, List.reverse_reverse]
    exact List.dropWhile_suffix _
  have hle : w.length ≤ (paramText a k).length := by
    have := hpre.length_le
    simp [paramText, hk] at this ⊢
    omega
  rcases w with _ | ⟨c, w⟩
  · have : (Cli.strip ([] : Text)).length = 0 := rfl
    rw [this] at hlen
    simp [paramText] at hlen
  · have hc : c = ' ' := by
      obtain ⟨t, ht⟩ := hpre
      simp at ht
      exact ht.1
    subst hc
    have h1 : (Cli.strip (' ' :: w)).length ≤ w.length := by
      have : Cli.strip (' ' :: w) = Cli.strip w := by
        unfold Cli.strip
        rw [List.dropWhile_cons_of_pos (by decide)]
      rw [this]
      exact length_strip w
    simp only [List.length_cons] at hle
    omega

/-- Names that meet the hypotheses, and what becomes of the label otherwise. -/
example : ' ' ∉ "drop.xvg.1".toList ∧ '3' ∉ "drop.xvg.1".toList ∧ '1' ∈ "drop.xvg.1".toList ∧
    String.ofList (fitLabel "drop.xvg.1 a=2.000, k=0.503".toList "drop.xvg.1".toList) = "a=2.000, k=0.503" ∧
    String.ofList (fitLabel "drop.xvg.1 a=2.000, k=0.511".toList "drop.xvg.1".toList) = "a=2.000, k=0.5" := by
  refine ⟨?_, ?_, ?_, ?_, ?_⟩ <;> decide +kernel

end Strata.SpreadingFit
