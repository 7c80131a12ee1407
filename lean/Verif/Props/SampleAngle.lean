import Verif.Proofs.SampleAngle
import Verif.Props.Sample
/-!
# Sampling: flow angle and sampling by direction: C44, C45, C46
-/
namespace Strata.Sample
open Strata Strata.Flow Strata.Average Strata.Resample Strata.Gmx Strata.SimpleAverage Strata.Simple
open Finset

/-! ## C44 -/

theorem arctan2_zero : arctan2 0 0 = 0 := by
  unfold arctan2
  simp only [Rat.cast_zero]
  exact Complex.arg_zero

theorem degrees_range (v u : ℚ) : -180 < degrees (arctan2 v u) ∧ degrees (arctan2 v u) ≤ 180 := by
  have hpi := Real.pi_pos
  unfold degrees arctan2
  have h1 := Complex.neg_pi_lt_arg ⟨(u : ℝ), (v : ℝ)⟩
  have h2 := Complex.arg_le_pi ⟨(u : ℝ), (v : ℝ)⟩
  rw [lt_div_iff₀ hpi, div_le_iff₀ hpi]
  constructor <;> nlinarith

theorem isAngle_arctan2 (u v : ℚ) (h : u ≠ 0 ∨ v ≠ 0) : IsAngle u v (degrees (arctan2 v u)) := by
  refine ⟨(degrees_range v u).1, (degrees_range v u).2, ‖(⟨(u : ℝ), (v : ℝ)⟩ : ℂ)‖, ?_, ?_, ?_⟩
  · rw [norm_pos_iff]
    intro h0
    have h1 := congrArg Complex.re h0
    have h2 := congrArg Complex.im h0
    simp only [Complex.zero_re, Complex.zero_im, Rat.cast_eq_zero] at h1 h2
    rcases h with h | h
    · exact h h1
    · exact h h2
  · rw [deg_rad]
    exact (Complex.norm_mul_cos_arg ⟨(u : ℝ), (v : ℝ)⟩).symm
  · rw [deg_rad]
    exact (Complex.norm_mul_sin_arg ⟨(u : ℝ), (v : ℝ)⟩).symm

theorem arctan2_scale (u v c : ℚ) (hc : 0 < c) : arctan2 (c * v) (c * u) = arctan2 v u := by
  unfold arctan2
  have hc' : (0 : ℝ) < c := by exact_mod_cast hc
  rw [← Complex.arg_real_mul ⟨(u : ℝ), (v : ℝ)⟩ hc']
  congr 1
  apply Complex.ext <;> simp

theorem IsAngle.unique {u v : ℚ} {a b : ℝ} (ha : IsAngle u v a) (hb : IsAngle u v b) : a = b := by
  have key : ∀ {θ : ℝ}, IsAngle u v θ → Complex.arg ⟨(u : ℝ), (v : ℝ)⟩ = θ * Real.pi / 180 := by
    rintro θ ⟨h0, h1, r, hr, e1, e2⟩
    have hpi := Real.pi_pos
    have : (⟨(u : ℝ), (v : ℝ)⟩ : ℂ) = r * (Complex.cos ((θ * Real.pi / 180 : ℝ) : ℂ) + Complex.sin ((θ * Real.pi / 180 : ℝ) : ℂ) * Complex.I) := by
      rw [Complex.mk_eq_add_mul_I, e1, e2]
      push_cast
      ring
    rw [this]
    exact Complex.arg_mul_cos_add_sin_mul_I hr ⟨by nlinarith, by nlinarith⟩
  have := (key ha).symm.trans (key hb)
  have hpi := Real.pi_pos
  nlinarith

/-- **C44, angles of the bins.** One angle per bin, in (-180, 180], which is the angle of the flow of the bin if it has any
and 0 otherwise. -/
theorem C44_bin_angles (f : Flow) (ul vl : Label) (h : Wf f.data) (hu : ul ∈ names f.data) (hv : vl ∈ names f.data) (weight : Option Label) :
    ∃ a, flowAngle f [ul, vl] false weight = .ok a ∧ a.length = Flow.size f.data ∧ ∀ t, t < Flow.size f.data →
      (-180 < a.getD t 0 ∧ a.getD t 0 ≤ 180) ∧
      (val f.data ul t ≠ 0 ∨ val f.data vl t ≠ 0 → IsAngle (val f.data ul t) (val f.data vl t) (a.getD t 0)) ∧
      (val f.data ul t = 0 → val f.data vl t = 0 → a.getD t 0 = 0) := by
  obtain ⟨us, hus, hus'⟩ := field_ok hu
  obtain ⟨vs, hvs, hvs'⟩ := field_ok hv
  refine ⟨_, by unfold flowAngle; simp only [hus', hvs', ok_bind]; rfl, ?_, ?_⟩
  · rw [List.length_zipWith, col?_length h hus, col?_length h hvs, min_self]
  · intro t ht
    have e : (List.zipWith (fun v u => degrees (arctan2 v u)) vs us).getD t 0 = degrees (arctan2 (val f.data vl t) (val f.data ul t)) := by
      rw [List.getD_eq_getElem?_getD, List.getElem?_eq_getElem (by rw [List.length_zipWith, col?_length h hus, col?_length h hvs, min_self]; exact ht)]
      rw [Option.getD_some, List.getElem_zipWith, val_of_col hus, val_of_col hvs]
      simp only [List.getD_eq_getElem?_getD]
      rw [List.getElem?_eq_getElem (by rw [col?_length h hvs]; exact ht), List.getElem?_eq_getElem (by rw [col?_length h hus]; exact ht)]
      rfl
    rw [e]
    refine ⟨degrees_range _ _, fun hne => isAngle_arctan2 _ _ hne, ?_⟩
    intro h1 h2
    rw [h1, h2, arctan2_zero]
    simp [degrees]

/-- The weighted total of a field. -/
theorem weighted_sum {r : Record} (h : Wf r) {l m : Label} {c d : List ℚ} (hc : col? r l = some c) (hd : col? r m = some d) :
    (List.zipWith (· * ·) c d).sum = ∑ t ∈ range (Flow.size r), val r l t * val r m t := by
  conv_lhs => rw [eq_map_getD c, eq_map_getD d, col?_length h hc, col?_length h hd, zipWith_map_range, list_sum_range]
  exact sum_congr rfl fun t _ => by rw [val_of_col hc, val_of_col hd]

theorem flowAngle_mean (f : Flow) (ul vl : Label) (h : Wf f.data) (hu : ul ∈ names f.data) (hv : vl ∈ names f.data) (weight : Option Label)
    (hw : ∀ w, weight = some w → w ∈ names f.data ∧ w ≠ "") :
    flowAngle f [ul, vl] true weight = .ok [degrees (arctan2
      (∑ t ∈ range (Flow.size f.data), val f.data vl t * weight.elim 1 fun w => val f.data w t)
      (∑ t ∈ range (Flow.size f.data), val f.data ul t * weight.elim 1 fun w => val f.data w t))] := by
  obtain ⟨us, hus, hus'⟩ := field_ok hu
  obtain ⟨vs, hvs, hvs'⟩ := field_ok hv
  unfold flowAngle
  simp only [hus', hvs', ok_bind, if_true]
  cases weight with
  | none =>
    simp only [Option.elim_none, mul_one, total_sum h hus, total_sum h hvs]
  | some w =>
    obtain ⟨hw1, hw2⟩ := hw w rfl
    obtain ⟨ws, hws, hws'⟩ := field_ok hw1
    split
    · rename_i e; cases e
    · rename_i e; cases e; exact absurd rfl hw2
    · rename_i e
      cases e
      rw [hws', ok_bind, weighted_sum h hus hws, weighted_sum h hvs hws]
      rfl

/-- **C44, mean angle.** The mean is the angle of the summed flow, weighted if a weight is given, in (-180, 180]. -/
theorem C44_mean_angle (f : Flow) (ul vl : Label) (h : Wf f.data) (hu : ul ∈ names f.data) (hv : vl ∈ names f.data) (weight : Option Label)
    (hw : ∀ w, weight = some w → w ∈ names f.data ∧ w ≠ "") (U V : ℚ)
    (hU : U = ∑ t ∈ range (Flow.size f.data), val f.data ul t * weight.elim 1 fun w => val f.data w t)
    (hV : V = ∑ t ∈ range (Flow.size f.data), val f.data vl t * weight.elim 1 fun w => val f.data w t) :
    ∃ θ, flowAngle f [ul, vl] true weight = .ok [θ] ∧ (-180 < θ ∧ θ ≤ 180) ∧ (U ≠ 0 ∨ V ≠ 0 → IsAngle U V θ) ∧ (U = 0 → V = 0 → θ = 0) := by
  refine ⟨_, flowAngle_mean f ul vl h hu hv weight hw, ?_⟩
  rw [← hU, ← hV]
  refine ⟨degrees_range _ _, fun hne => isAngle_arctan2 _ _ hne, ?_⟩
  rintro rfl rfl
  rw [arctan2_zero]
  simp [degrees]

/-- The angle of a vector that is not zero is determined by `IsAngle`. -/
theorem C44_angle_is_unique (u v : ℚ) (a b : ℝ) (ha : IsAngle u v a) (hb : IsAngle u v b) : a = b := ha.unique hb

/-- **C44, scaling of the bins.** Multiplying the flow of every bin by a positive factor, which may differ between bins, does
not change the angles. -/
theorem C44_scaling_of_bins (f g : Flow) (ul vl : Label) (h : Wf f.data) (hu : ul ∈ names f.data) (hv : vl ∈ names f.data)
    (h' : Wf g.data) (hu' : ul ∈ names g.data) (hv' : vl ∈ names g.data) (hs : Flow.size g.data = Flow.size f.data) (c : ℕ → ℚ)
    (hc : ∀ t, t < Flow.size f.data → 0 < c t ∧ val g.data ul t = c t * val f.data ul t ∧ val g.data vl t = c t * val f.data vl t) :
    flowAngle g [ul, vl] = flowAngle f [ul, vl] := by
  obtain ⟨us, hus, hus'⟩ := field_ok hu
  obtain ⟨vs, hvs, hvs'⟩ := field_ok hv
  obtain ⟨us2, hus2, hus2'⟩ := field_ok hu'
  obtain ⟨vs2, hvs2, hvs2'⟩ := field_ok hv'
  unfold flowAngle
  simp only [hus', hvs', hus2', hvs2', ok_bind]
  simp only [Bool.false_eq_true, if_false]
  congr 1
  apply List.ext_getElem
  · simp only [List.length_zipWith, col?_length h hus, col?_length h hvs, col?_length h' hus2, col?_length h' hvs2, hs]
  · intro t h1 h2
    have ht : t < Flow.size f.data := by
      rw [List.length_zipWith, col?_length h hus, col?_length h hvs, min_self] at h2; exact h2
    obtain ⟨c0, c1, c2⟩ := hc t ht
    have get : ∀ (l : List ℚ) (hl : t < l.length), l[t] = l.getD t 0 := fun l hl => by
      rw [List.getD_eq_getElem?_getD, List.getElem?_eq_getElem hl]; rfl
    rw [List.getElem_zipWith, List.getElem_zipWith, get, get, get, get, ← val_of_col hus, ← val_of_col hvs, ← val_of_col hus2, ← val_of_col hvs2, c1, c2,
      arctan2_scale _ _ _ c0]

/-- **C44, scaling of the mean.** Multiplying all flow by one positive factor does not change the mean angle. -/
theorem C44_scaling_of_mean (f g : Flow) (ul vl : Label) (h : Wf f.data) (hu : ul ∈ names f.data) (hv : vl ∈ names f.data)
    (h' : Wf g.data) (hu' : ul ∈ names g.data) (hv' : vl ∈ names g.data) (hs : Flow.size g.data = Flow.size f.data) (weight : Option Label)
    (hw : ∀ w, weight = some w → w ∈ names f.data ∧ w ∈ names g.data ∧ w ≠ "" ∧ ∀ t, t < Flow.size f.data → val g.data w t = val f.data w t)
    (c : ℚ) (hc : 0 < c) (hval : ∀ t, t < Flow.size f.data → val g.data ul t = c * val f.data ul t ∧ val g.data vl t = c * val f.data vl t) :
    flowAngle g [ul, vl] true weight = flowAngle f [ul, vl] true weight := by
  rw [flowAngle_mean f ul vl h hu hv weight fun w e => ⟨(hw w e).1, (hw w e).2.2.1⟩,
    flowAngle_mean g ul vl h' hu' hv' weight fun w e => ⟨(hw w e).2.1, (hw w e).2.2.1⟩, hs]
  have key : ∀ l, (∀ t, t < Flow.size f.data → val g.data l t = c * val f.data l t) →
      ∑ t ∈ range (Flow.size f.data), val g.data l t * (weight.elim 1 fun w => val g.data w t) =
      c * ∑ t ∈ range (Flow.size f.data), val f.data l t * weight.elim 1 fun w => val f.data w t := by
    intro l hl
    rw [mul_sum]
    refine sum_congr rfl fun t ht => ?_
    rw [hl t (mem_range.mp ht)]
    cases weight with
    | none => simp
    | some w =>
      simp only [Option.elim_some]
      rw [(hw w rfl).2.2.2 t (mem_range.mp ht)]
      ring
  rw [key ul fun t ht => (hval t ht).1, key vl fun t ht => (hval t ht).2, arctan2_scale _ _ _ hc]

/-- **C44, order.** If `g` has the bins of `f` in another order (bin `t` of `g` is bin `σ t` of `f`), the mean angle is the same. -/
theorem C44_order_of_bins (f g : Flow) (ul vl : Label) (h : Wf f.data) (hu : ul ∈ names f.data) (hv : vl ∈ names f.data)
    (h' : Wf g.data) (hu' : ul ∈ names g.data) (hv' : vl ∈ names g.data) (hs : Flow.size g.data = Flow.size f.data) (weight : Option Label)
    (hw : ∀ w, weight = some w → w ∈ names f.data ∧ w ∈ names g.data ∧ w ≠ "") (σ : Fin (Flow.size f.data) ≃ Fin (Flow.size f.data))
    (hσ : ∀ (t : Fin (Flow.size f.data)) l, val g.data l t = val f.data l (σ t)) :
    flowAngle g [ul, vl] true weight = flowAngle f [ul, vl] true weight := by
  rw [flowAngle_mean f ul vl h hu hv weight fun w e => ⟨(hw w e).1, (hw w e).2.2⟩,
    flowAngle_mean g ul vl h' hu' hv' weight fun w e => ⟨(hw w e).2.1, (hw w e).2.2⟩, hs]
  have key : ∀ l, ∑ t ∈ range (Flow.size f.data), val g.data l t * (weight.elim 1 fun w => val g.data w t) =
      ∑ t ∈ range (Flow.size f.data), val f.data l t * weight.elim 1 fun w => val f.data w t := by
    intro l
    rw [← Fin.sum_univ_eq_sum_range (fun t => val g.data l t * (weight.elim 1 fun w => val g.data w t)),
      ← Fin.sum_univ_eq_sum_range (fun t => val f.data l t * (weight.elim 1 fun w => val f.data w t)),
      ← Equiv.sum_comp σ (fun t : Fin (Flow.size f.data) => val f.data l t * (weight.elim 1 fun w => val f.data w t))]
    refine sum_congr rfl fun t _ => ?_
    rw [hσ t l]
    cases weight with
    | none => rfl
    | some w => simp only [Option.elim_some]; rw [hσ t w]
  rw [key ul, key vl]

/-- A number of flow labels other than two raises `ValueError`. -/
theorem C44_labels (f : Flow) (ls : List Label) (h : ls.length ≠ 2) (mean : Bool) (weight : Option Label) :
    flowAngle f ls mean weight = .error .valueError := by
  unfold flowAngle
  split
  · exact absurd rfl h
  · rfl

/-- The bins of `exC` flow along x, not at all, and against x and upwards; the sum weighted by the mass is (-1, 1), at 135 degrees. -/
example : (∃ a, flowAngle exC ["U", "V"] true (some "M") = .ok [a] ∧ a = 135) ∧ val exC.data "U" 1 = 0 ∧ val exC.data "V" 1 = 0 ∧ IsAngle (-1) 1 135 := by
  have hA : IsAngle (-1) 1 135 := by
    refine ⟨by norm_num, by norm_num, Real.sqrt 2, by positivity, ?_, ?_⟩
    · rw [show (135 : ℝ) * Real.pi / 180 = Real.pi - Real.pi / 4 by ring, Real.cos_pi_sub, Real.cos_pi_div_four]
      have := Real.mul_self_sqrt (show (0 : ℝ) ≤ 2 by norm_num)
      push_cast; linarith
    · rw [show (135 : ℝ) * Real.pi / 180 = Real.pi - Real.pi / 4 by ring, Real.sin_pi_sub, Real.sin_pi_div_four]
      have := Real.mul_self_sqrt (show (0 : ℝ) ≤ 2 by norm_num)
      push_cast; linarith
  refine ⟨?_, by decide +kernel, by decide +kernel, hA⟩
  obtain ⟨a, h1, -, h2, -⟩ := C44_mean_angle exC "U" "V" ⟨by decide, by decide⟩ (by decide) (by decide) (some "M") (by simp [exC, names]) (-1) 1
    (by decide +kernel) (by decide +kernel)
  exact ⟨a, h1, (h2 (by norm_num)).unique hA⟩

/-! ## C45 -/

/-- **C45, partial.** For a positive interval size the result has the angles `A, A + size, …` and, for each, the weighted mean of
the bins within the limits whose direction, seen from the origin, is in `[angle, angle + size)`.  Missing: bins exactly on the
negative x axis and bins less than 1e-6 degrees below the end of an interval, for which this is false (see below). -/
theorem C45_bins_by_direction_partial (f : Flow) (o : ℚ × ℚ) (label : Label) (co : Label × Label) (weight : Option Label) (amin amax rmin : ℚ)
    (rmax : Option ℚ) (size : ℚ) (hsz : 0 < size) (hx : co.1 ∈ names f.data) (hy : co.2 ∈ names f.data) (hl : label ∈ names f.data)
    (hw : ∀ w, weight = some w → w ∈ names f.data) (A B : ℚ) (hA : A = max 0 amin) (hB : B = min (360 - size) amax)
    (hneg : ∀ t, t < Flow.size f.data → ¬ ((offset f.data co o t).2 = 0 ∧ (offset f.data co o t).1 < 0))
    (hend : ∀ t, t < Flow.size f.data → ∀ θ, IsDirection (offset f.data co o t) θ → ∀ k : ℕ,
      ¬ ((A : ℝ) + size * (k + 1) - 1 / 1000000 < θ ∧ θ < (A : ℝ) + size * (k + 1))) :
    ∃ out, perAngle f o label co weight amin amax rmin rmax size = .ok out ∧
      (out.length : ℤ) = max 0 ⌈(B + size - A) / size⌉ ∧
      ∀ k, k < out.length → out.getD k (0, 0) = (A + size * (k : ℚ),
        meanOf (Flow.size f.data) (val f.data label) (fun t => weight.elim 1 fun w => val f.data w t)
          (InInterval f.data co o A B rmin rmax size k)) := by
  subst hA hB
  refine ⟨_, perAngle_eq f o label co weight amin amax rmin rmax size hsz hx hy hl hw, ?_, ?_⟩
  · rw [List.length_map, List.length_range]
    unfold numIntervals
    rw [Int.toNat_eq_max, max_comm]
  · intro k hk
    rw [List.length_map, List.length_range] at hk
    rw [List.getD_eq_getElem?_getD, List.getElem?_eq_getElem (by simpa using hk), Option.getD_some, List.getElem_map, List.getElem_range]
    congr 1
    apply meanOf_congr
    intro t ht
    exact assigned_iff _ _ _ _ _ _ _ _ hsz t (hneg t ht) (hend t ht) k

/-- One bin, with the value 7. -/
def oneBin (x y : ℚ) : Flow := ⟨[("X", [x]), ("Y", [y]), ("V", [7])], {}⟩

theorem oneBin_offset (x y : ℚ) : offset (oneBin x y).data ("X", "Y") (0, 0) 0 = (x, y) := by
  simp [offset, oneBin, Average.val, col?, List.lookup_cons]

theorem oneBin_result (x y amin amax rmin : ℚ) (rmax : Option ℚ) (size : ℚ) (hsz : 0 < size) (A B : ℚ) (hA : A = max 0 amin) (hB : B = min (360 - size) amax) :
    ∃ out, perAngle (oneBin x y) (0, 0) "V" ("X", "Y") none amin amax rmin rmax size = .ok out ∧ out.length = numIntervals A B size ∧
      ∀ k, k < out.length → (out.getD k (0, 0)).1 = A + size * (k : ℚ) ∧
        (Assigned (oneBin x y).data ("X", "Y") (0, 0) A B rmin rmax size k 0 → (out.getD k (0, 0)).2 = 7) ∧
        (¬ Assigned (oneBin x y).data ("X", "Y") (0, 0) A B rmin rmax size k 0 → (out.getD k (0, 0)).2 = 0) := by
  classical
  subst hA hB
  refine ⟨_, perAngle_eq (oneBin x y) (0, 0) "V" ("X", "Y") none amin amax rmin rmax size hsz (by simp [oneBin, names]) (by simp [oneBin, names])
    (by simp [oneBin, names]) (by simp), by simp, ?_⟩
  intro k hk
  rw [List.length_map, List.length_range] at hk
  rw [List.getD_eq_getElem?_getD, List.getElem?_eq_getElem (by simpa using hk), Option.getD_some, List.getElem_map, List.getElem_range]
  have hs : Flow.size (oneBin x y).data = 1 := rfl
  have hv : Average.val (oneBin x y).data "V" 0 = 7 := by simp [Average.val, oneBin, col?, List.lookup_cons]
  refine ⟨rfl, ?_, ?_⟩
  · intro h
    unfold meanOf
    have : (Finset.range (Flow.size (oneBin x y).data)).filter (Assigned (oneBin x y).data ("X", "Y") (0, 0) (max 0 amin) (min (360 - size) amax) rmin rmax size k) = {0} := by
      rw [hs]; ext t; simp only [Finset.mem_filter, Finset.mem_range, Finset.mem_singleton]
      constructor
      · rintro ⟨h1, -⟩; omega
      · rintro rfl; exact ⟨by omega, h⟩
    rw [this]
    simp [hv]
  · intro h
    unfold meanOf
    have : (Finset.range (Flow.size (oneBin x y).data)).filter (Assigned (oneBin x y).data ("X", "Y") (0, 0) (max 0 amin) (min (360 - size) amax) rmin rmax size k) = ∅ := by
      rw [hs]; ext t; simp only [Finset.mem_filter, Finset.mem_range, Finset.notMem_empty, iff_false]
      rintro ⟨h1, h2⟩
      have : t = 0 := by omega
      subst this; exact h h2
    rw [this]
    simp

theorem assigned_of {x y A B size : ℚ} {rmax : Option ℚ} (hr : rmax = none) {k m : ℕ} {a : ℝ} (ha : binDegrees (x, y) = some a) (h1 : (A : ℝ) ≤ a) (h2 : a ≤ (B : ℝ))
    (hm : closestIndex (arange A (B + size) size) (a - 1 / 2 * (size : ℝ) + 1 / 1000000) = m) :
    Assigned (oneBin x y).data ("X", "Y") (0, 0) A B 0 rmax size k 0 ↔ k = m := by
  subst hr
  unfold Assigned At
  rw [oneBin_offset, ha]
  constructor
  · rintro ⟨a', ⟨-, e, -⟩, h⟩
    cases e
    rw [← h, hm]
  · rintro rfl
    exact ⟨a, ⟨⟨by simpa using dist_nonneg _, by simp⟩, rfl, h1, h2⟩, hm⟩

/-- **C45 is false on the negative x axis.** With the default arguments a bin to the left of the origin, whose direction is 180
degrees, is counted at 0 degrees. -/
theorem C45_negative_axis_counterexample (x : ℚ) (hx : x < 0) :
    IsDirection (x, 0) 180 ∧ ∃ out, perAngle (oneBin x 0) (0, 0) "V" ("X", "Y") none 0 360 0 none 1 = .ok out ∧
      out.getD 0 (0, 0) = (0, 7) ∧ out.getD 180 (0, 0) = (180, 0) := by
  refine ⟨isDirection_negative_axis (x, 0) rfl hx, ?_⟩
  obtain ⟨out, h1, h2, h3⟩ := oneBin_result x 0 0 360 0 none 1 (by norm_num) 0 359 (by norm_num) (by norm_num)
  have hN : numIntervals 0 359 1 = 360 := by decide +kernel
  have hc : closestIndex (arange 0 (359 + 1) 1) ((0 : ℝ) - 1 / 2 * ((1 : ℚ) : ℝ) + 1 / 1000000) = 0 := by
    unfold arange
    exact closestIndex_eq 0 1 (by norm_num) _ _ 0 (by decide +kernel) (Or.inl rfl) (Or.inr (by norm_num))
  have hiff := fun k => assigned_of (x := x) (y := 0) (A := 0) (B := 359) (size := 1) rfl (k := k) (binDegrees_negative_axis (x, 0) rfl hx) (by norm_num) (by norm_num) hc
  refine ⟨out, h1, ?_, ?_⟩
  · obtain ⟨e1, e2, -⟩ := h3 0 (by rw [h2, hN]; norm_num)
    exact Prod.ext (by rw [e1]; norm_num) (e2 ((hiff 0).mpr rfl))
  · obtain ⟨e1, -, e3⟩ := h3 180 (by rw [h2, hN]; norm_num)
    exact Prod.ext (by rw [e1]; norm_num) (e3 fun h => by have := (hiff 180).mp h; omega)

theorem isDirection_diagonal : IsDirection (1, 1) 45 := by
  refine ⟨by norm_num, by norm_num, Real.sqrt 2, by positivity, ?_, ?_⟩
  · rw [show (45 : ℝ) * Real.pi / 180 = Real.pi / 4 by ring, Real.cos_pi_div_four]
    have := Real.mul_self_sqrt (show (0 : ℝ) ≤ 2 by norm_num)
    push_cast; linarith
  · rw [show (45 : ℝ) * Real.pi / 180 = Real.pi / 4 by ring, Real.sin_pi_div_four]
    have := Real.mul_self_sqrt (show (0 : ℝ) ≤ 2 by norm_num)
    push_cast; linarith

/-- **C45 is false just below the end of an interval.** With intervals of 45.0000005 degrees the bin at (1, 1), whose direction
of 45 degrees is in the first interval, is counted in the second. -/
theorem C45_interval_end_counterexample : IsDirection (1, 1) 45 ∧
    ∃ out, perAngle (oneBin 1 1) (0, 0) "V" ("X", "Y") none 0 360 0 none (90000001 / 2000000) = .ok out ∧
      out.getD 0 (0, 0) = (0, 0) ∧ out.getD 1 (0, 0) = (90000001 / 2000000, 7) := by
  refine ⟨isDirection_diagonal, ?_⟩
  obtain ⟨out, h1, h2, h3⟩ := oneBin_result 1 1 0 360 0 none (90000001 / 2000000) (by norm_num) 0 (360 - 90000001 / 2000000) (by norm_num) (by norm_num)
  have hN : numIntervals 0 (360 - 90000001 / 2000000) (90000001 / 2000000) = 8 := by decide +kernel
  have hc : closestIndex (arange 0 ((360 - 90000001 / 2000000) + 90000001 / 2000000) (90000001 / 2000000))
      ((45 : ℝ) - 1 / 2 * ((90000001 / 2000000 : ℚ) : ℝ) + 1 / 1000000) = 1 := by
    unfold arange
    exact closestIndex_eq 0 _ (by norm_num) _ _ 1 (by decide +kernel) (Or.inr (by norm_num)) (Or.inr (by norm_num))
  obtain ⟨θ, hb, hd⟩ := binDegrees_direction (1, 1) (Or.inr (by norm_num))
  rw [hd.unique isDirection_diagonal] at hb
  have hiff := fun k => assigned_of (x := 1) (y := 1) (A := 0) (B := 360 - 90000001 / 2000000) (size := 90000001 / 2000000) rfl (k := k) hb (by norm_num) (by norm_num) hc
  refine ⟨out, h1, ?_, ?_⟩
  · obtain ⟨e1, -, e3⟩ := h3 0 (by rw [h2, hN]; norm_num)
    exact Prod.ext (by rw [e1]; norm_num) (e3 fun h => by have := (hiff 0).mp h; omega)
  · obtain ⟨e1, e2, -⟩ := h3 1 (by rw [h2, hN]; norm_num)
    exact Prod.ext (by rw [e1]; norm_num) (e2 ((hiff 1).mpr rfl))

/-! ## C46 -/

/-- **C46, partial.** With the default limits every bin other than the origin whose direction is at most `360 - size` is in exactly
one of the intervals of the result (to which C45 assigns it).  Missing: directions above `360 - size`, see below. -/
theorem C46_every_direction_partial (f : Flow) (o : ℚ × ℚ) (co : Label × Label) (size : ℚ) (hsz : 0 < size) (t : ℕ)
    (θ : ℝ) (hθ : IsDirection (offset f.data co o t) θ) (h : θ ≤ 360 - (size : ℝ)) :
    ∃! k : ℕ, (k : ℤ) < ⌈(360 - size + size - 0) / size⌉ ∧ InInterval f.data co o 0 (360 - size) 0 none size k t := by
  obtain ⟨k, k1, k2⟩ := exists_interval (A := 0) hsz (show ((0 : ℚ) : ℝ) ≤ θ by simpa using hθ.1)
  have hk := index_lt (A := 0) (B := 360 - size) hsz (by push_cast; exact h) k1
  refine ⟨k, ⟨?_, (inRadius_iff ..).mpr ⟨by simpa using dist_nonneg _, by simp⟩, θ, hθ, by simpa using hθ.1, by push_cast; exact h, k1, k2⟩, ?_⟩
  · unfold numIntervals at hk
    exact Int.lt_toNat.mp hk
  · rintro m ⟨-, -, φ, hφ, -, -, m1, m2⟩
    rw [hφ.unique hθ] at m1 m2
    exact interval_unique hsz ⟨m1, m2⟩ ⟨k1, k2⟩

/-- **C46 is false in the last interval.** For every interval size, bins with directions between `360 - size` and 360 are not
sampled: for a map of such bins all values are 0. -/
theorem C46_last_interval_is_dropped (f : Flow) (o : ℚ × ℚ) (label : Label) (co : Label × Label) (weight : Option Label) (rmin : ℚ) (rmax : Option ℚ)
    (size : ℚ) (hsz : 0 < size) (hx : co.1 ∈ names f.data) (hy : co.2 ∈ names f.data) (hl : label ∈ names f.data)
    (hw : ∀ w, weight = some w → w ∈ names f.data)
    (hdir : ∀ t, t < Flow.size f.data → ∃ θ, IsDirection (offset f.data co o t) θ ∧ 360 - (size : ℝ) < θ ∧ 180 < θ) :
    ∃ out, perAngle f o label co weight 0 360 rmin rmax size = .ok out ∧ ∀ p ∈ out, p.2 = 0 := by
  classical
  refine ⟨_, perAngle_eq f o label co weight 0 360 rmin rmax size hsz hx hy hl hw, ?_⟩
  intro p hp
  obtain ⟨k, -, rfl⟩ := List.mem_map.mp hp
  have : (Finset.range (Flow.size f.data)).filter (Assigned f.data co o (max 0 0) (min (360 - size) 360) rmin rmax size k) = ∅ := by
    ext t; simp only [Finset.mem_filter, Finset.mem_range, Finset.notMem_empty, iff_false]
    rintro ⟨ht, a, ⟨-, hb, -, h4⟩, -⟩
    obtain ⟨θ, hθ, h5, h6⟩ := hdir t ht
    have hne : ¬ ((offset f.data co o t).2 = 0 ∧ (offset f.data co o t).1 < 0) := by
      rintro ⟨e1, e2⟩
      have := hθ.unique (isDirection_negative_axis _ e1 e2)
      linarith
    have h0 := hθ.ne_zero
    have hor : (offset f.data co o t).2 ≠ 0 ∨ 0 < (offset f.data co o t).1 := by
      by_contra hc
      push Not at hc
      rcases lt_or_eq_of_le hc.2 with h | h
      · exact hne ⟨hc.1, h⟩
      · exact h0 (Prod.ext h hc.1)
    obtain ⟨θ', h7, h8⟩ := binDegrees_direction _ hor
    rw [h7] at hb
    cases hb
    rw [h8.unique hθ] at h4
    have : ((min (360 - size) 360 : ℚ) : ℝ) ≤ 360 - (size : ℝ) := by
      have : min (360 - size) 360 ≤ 360 - size := min_le_left _ _
      exact_mod_cast this
    linarith
  simp only [meanOf, this]
  simp

theorem isDirection_315 : IsDirection (1, -1) 315 := by
  refine ⟨by norm_num, by norm_num, Real.sqrt 2, by positivity, ?_, ?_⟩
  · rw [show (315 : ℝ) * Real.pi / 180 = 2 * Real.pi - Real.pi / 4 by ring, Real.cos_two_pi_sub, Real.cos_pi_div_four]
    have := Real.mul_self_sqrt (show (0 : ℝ) ≤ 2 by norm_num)
    push_cast; linarith
  · rw [show (315 : ℝ) * Real.pi / 180 = 2 * Real.pi - Real.pi / 4 by ring, Real.sin_two_pi_sub, Real.sin_pi_div_four]
    have := Real.mul_self_sqrt (show (0 : ℝ) ≤ 2 by norm_num)
    push_cast; linarith

/-- A concrete bin that is lost: with intervals of 90 degrees, the bin at (1, -1), whose direction is 315 degrees. -/
theorem C46_counterexample : IsDirection (1, -1) 315 ∧
    ∃ out, perAngle (oneBin 1 (-1)) (0, 0) "V" ("X", "Y") none 0 360 0 none 90 = .ok out ∧ ∀ p ∈ out, p.2 = 0 := by
  refine ⟨isDirection_315, C46_last_interval_is_dropped (oneBin 1 (-1)) (0, 0) "V" ("X", "Y") none 0 none 90 (by norm_num) (by simp [oneBin, names])
    (by simp [oneBin, names]) (by simp [oneBin, names]) (by simp) ?_⟩
  intro t ht
  have : t = 0 := by have : Flow.size (oneBin 1 (-1)).data = 1 := rfl
                     omega
  subst this
  exact ⟨315, by rw [oneBin_offset]; exact isDirection_315, by norm_num, by norm_num⟩

/-- A case that meets the hypotheses of the partial theorems: the bin at (1, 1), with intervals of 10 degrees, is sampled at 40. -/
example : ∃ out, perAngle (oneBin 1 1) (0, 0) "V" ("X", "Y") none 0 360 0 none 10 = .ok out ∧ out.getD 4 (0, 0) = (40, 7) := by
  obtain ⟨out, h1, h2, h3⟩ := oneBin_result 1 1 0 360 0 none 10 (by norm_num) 0 350 (by norm_num) (by norm_num)
  have hdir : ∀ θ, IsDirection (offset (oneBin 1 1).data ("X", "Y") (0, 0) 0) θ → θ = 45 := by
    rw [oneBin_offset]; exact fun θ h => h.unique isDirection_diagonal
  have := (assigned_iff (oneBin 1 1).data ("X", "Y") (0, 0) 0 350 0 none 10 (by norm_num) 0 (by rw [oneBin_offset]; norm_num) (by
    intro θ hθ k
    rw [hdir θ hθ]
    rintro ⟨a, b⟩
    rcases Nat.lt_or_ge k 4 with hk | hk
    · have : (k : ℝ) ≤ 3 := by exact_mod_cast (by omega : k ≤ 3)
      push_cast at b; linarith
    · have : (4 : ℝ) ≤ k := by exact_mod_cast hk
      push_cast at a; linarith) 4).mpr
    ⟨(inRadius_iff ..).mpr ⟨by simpa using dist_nonneg _, by simp⟩, 45, by rw [oneBin_offset]; exact isDirection_diagonal, by norm_num, by norm_num, by norm_num, by norm_num⟩
  obtain ⟨e1, e2, -⟩ := h3 4 (by rw [h2]; decide +kernel)
  exact ⟨out, h1, Prod.ext (by rw [e1]; norm_num) (e2 this)⟩

end Strata.Sample
