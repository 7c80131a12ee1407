import Verif.Spec.Sample
import Verif.Proofs.Sample
import Mathlib.Analysis.SpecialFunctions.Trigonometric.Arctan
/-! # Lemmas about sampling by angle -/
namespace Strata.Sample
open Strata Strata.Flow Strata.Average Strata.Resample Strata.Gmx
open Real

theorem deg_rad (x : ℝ) : degrees x * π / 180 = x := by
  unfold degrees
  have := Real.pi_pos.ne'
  field_simp

theorem dist_nonneg (d : ℚ × ℚ) : 0 ≤ dist d := Real.sqrt_nonneg _

theorem dist_sq (d : ℚ × ℚ) : dist d ^ 2 = (d.1 : ℝ) ^ 2 + (d.2 : ℝ) ^ 2 := Real.sq_sqrt (by positivity)

theorem dist_eq_zero (d : ℚ × ℚ) : dist d = 0 ↔ d = (0, 0) := by
  constructor
  · intro h
    have := dist_sq d
    rw [h] at this
    have h1 : (d.1 : ℝ) = 0 := by nlinarith [sq_nonneg (d.1 : ℝ), sq_nonneg (d.2 : ℝ)]
    have h2 : (d.2 : ℝ) = 0 := by nlinarith [sq_nonneg (d.1 : ℝ), sq_nonneg (d.2 : ℝ)]
    exact Prod.ext (by exact_mod_cast h1) (by exact_mod_cast h2)
  · rintro rfl
    unfold dist
    simp

theorem mod360_id {x : ℝ} (h0 : 0 ≤ x) (h1 : x < 360) : mod360 x = x := by
  unfold mod360
  have : ⌊x / 360⌋ = 0 := by
    rw [Int.floor_eq_iff]
    constructor
    · push_cast; positivity
    · push_cast; rw [div_lt_iff₀ (by norm_num)]; linarith
  rw [this]; simp

theorem mod360_neg {x : ℝ} (h0 : -360 ≤ x) (h1 : x < 0) : mod360 x = x + 360 := by
  unfold mod360
  have : ⌊x / 360⌋ = -1 := by
    rw [Int.floor_eq_iff]
    constructor
    · push_cast; rw [le_div_iff₀ (by norm_num)]; linarith
    · push_cast; rw [div_lt_iff₀ (by norm_num)]; linarith
  rw [this]; push_cast; ring

theorem IsDirection.unique {d : ℚ × ℚ} {a b : ℝ} (ha : IsDirection d a) (hb : IsDirection d b) : a = b := by
  obtain ⟨a0, a1, r, hr, e1, e2⟩ := ha
  obtain ⟨b0, b1, s, hs, f1, f2⟩ := hb
  have hpi := Real.pi_pos
  have hrs : r = s := by
    have h1 : (d.1 : ℝ) ^ 2 + (d.2 : ℝ) ^ 2 = r ^ 2 := by
      rw [e1, e2]; have := Real.sin_sq_add_cos_sq (a * π / 180); linear_combination r ^ 2 * this
    have h2 : (d.1 : ℝ) ^ 2 + (d.2 : ℝ) ^ 2 = s ^ 2 := by
      rw [f1, f2]; have := Real.sin_sq_add_cos_sq (b * π / 180); linear_combination s ^ 2 * this
    have : r ^ 2 = s ^ 2 := by linarith
    nlinarith
  subst hrs
  have hc : Real.cos (a * π / 180) = Real.cos (b * π / 180) := by
    have := e1.symm.trans f1; exact mul_left_cancel₀ hr.ne' this
  have hsn : Real.sin (a * π / 180) = Real.sin (b * π / 180) := by
    have := e2.symm.trans f2; exact mul_left_cancel₀ hr.ne' this
  have h1 : Real.cos (a * π / 180 - b * π / 180) = 1 := by
    rw [Real.cos_sub, hc, hsn]; have := Real.sin_sq_add_cos_sq (b * π / 180); linear_combination this
  obtain ⟨k, hk⟩ := (Real.cos_eq_one_iff _).mp h1
  have hk' : a - b = 360 * k := by
    have : (a - b) * π = (360 * k) * π := by linear_combination -180 * hk
    exact mul_right_cancel₀ hpi.ne' this
  have : k = 0 := by
    have l1 : (k : ℝ) < 1 := by linarith
    have l2 : (-1 : ℝ) < k := by linarith
    have l1' : k < 1 := by exact_mod_cast l1
    have l2' : -1 < k := by exact_mod_cast l2
    omega
  rw [this] at hk'
  simp at hk'
  linarith

/-- The code's angle is the direction, except on the negative x axis. -/
theorem binDegrees_direction (d : ℚ × ℚ) (h : d.2 ≠ 0 ∨ 0 < d.1) : ∃ θ, binDegrees d = some θ ∧ IsDirection d θ := by
  have hpi := Real.pi_pos
  have hd0 : d ≠ (0, 0) := by rintro rfl; simp at h
  have hR0 : dist d ≠ 0 := fun e => hd0 ((dist_eq_zero d).mp e)
  have hR : 0 < dist d := lt_of_le_of_ne (dist_nonneg d) (Ne.symm hR0)
  have hsq := dist_sq d
  set R := dist d with hRdef
  have hc1 : |(d.1 : ℝ) / R| ≤ 1 := by
    rw [abs_div, abs_of_pos hR, div_le_one hR]
    apply abs_le_of_sq_le_sq _ hR.le
    nlinarith [sq_nonneg (d.2 : ℝ)]
  obtain ⟨hc2, hc3⟩ := abs_le.mp hc1
  have hcos := Real.cos_arccos hc2 hc3
  have hsin : Real.sin (Real.arccos ((d.1 : ℝ) / R)) = |(d.2 : ℝ)| / R := by
    rw [Real.sin_arccos]
    rw [show 1 - ((d.1 : ℝ) / R) ^ 2 = (|(d.2 : ℝ)| / R) ^ 2 by
      rw [div_pow, div_pow, sq_abs]; field_simp; linarith]
    exact Real.sqrt_sq (by positivity)
  have hφ0 := Real.arccos_nonneg ((d.1 : ℝ) / R)
  have hφ1 := Real.arccos_le_pi ((d.1 : ℝ) / R)
  set φ := Real.arccos ((d.1 : ℝ) / R) with hφ
  have hdeg0 : 0 ≤ degrees φ := by unfold degrees; positivity
  have hdeg1 : degrees φ ≤ 180 := by
    unfold degrees; rw [div_le_iff₀ hpi]; nlinarith
  have hb : binDegrees d = some (mod360 (degrees ((SignType.sign d.2 : ℝ) * φ))) := by
    unfold binDegrees; rw [if_neg hR0]
  rw [hb]
  rcases lt_trichotomy d.2 0 with hneg | hzero | hpos
  · have hneg' : (d.2 : ℝ) < 0 := by exact_mod_cast hneg
    have hφpos : 0 < φ := by
      rcases eq_or_lt_of_le hφ0 with e | e
      · exfalso
        rw [← e, Real.sin_zero, abs_of_neg hneg'] at hsin
        have : -(d.2 : ℝ) / R > 0 := div_pos (by linarith) hR
        linarith
      · exact e
    refine ⟨_, rfl, ?_⟩
    rw [sign_neg hneg]
    have e' : degrees (((-1 : SignType) : ℝ) * φ) = -degrees φ := by
      unfold degrees; simp; ring
    have e2 : (-degrees φ + 360) * π / 180 = -φ + 2 * π := by
      have := deg_rad φ
      linarith
    rw [e']
    have hdpos : 0 < degrees φ := by unfold degrees; positivity
    rw [mod360_neg (by linarith) (by linarith)]
    refine ⟨by linarith, by linarith, R, hR, ?_, ?_⟩
    · rw [e2, Real.cos_add_two_pi, Real.cos_neg, hcos]
      field_simp
    · rw [e2, Real.sin_add_two_pi, Real.sin_neg, hsin, abs_of_neg hneg']
      field_simp
  · have h1 : 0 < d.1 := h.resolve_left (by simp [hzero])
    refine ⟨_, rfl, ?_⟩
    rw [hzero, sign_zero]
    have e : degrees (((0 : SignType) : ℝ) * φ) = 0 := by unfold degrees; simp
    rw [e, mod360_id le_rfl (by norm_num)]
    refine ⟨le_rfl, by norm_num, (d.1 : ℝ), by exact_mod_cast h1, ?_, ?_⟩
    · simp
    · rw [hzero]; simp
  · have hpos' : 0 < (d.2 : ℝ) := by exact_mod_cast hpos
    refine ⟨_, rfl, ?_⟩
    rw [sign_pos hpos]
    have e : degrees (((1 : SignType) : ℝ) * φ) = degrees φ := by unfold degrees; simp
    rw [e, mod360_id hdeg0 (by linarith)]
    refine ⟨hdeg0, by linarith, R, hR, ?_, ?_⟩
    · rw [deg_rad, hcos]; field_simp
    · rw [deg_rad, hsin, abs_of_pos hpos']; field_simp

/-- On the negative x axis the code's angle is 0. -/
theorem binDegrees_negative_axis (d : ℚ × ℚ) (h : d.2 = 0) (h' : d.1 < 0) : binDegrees d = some 0 := by
  have hR0 : dist d ≠ 0 := by
    rw [Ne, dist_eq_zero]
    rintro rfl
    exact absurd h' (lt_irrefl _)
  unfold binDegrees
  rw [if_neg hR0, h, sign_zero]
  have e : degrees (((0 : SignType) : ℝ) * Real.arccos ((d.1 : ℝ) / dist d)) = 0 := by unfold degrees; simp
  rw [e, mod360_id le_rfl (by norm_num)]

theorem isDirection_negative_axis (d : ℚ × ℚ) (h : d.2 = 0) (h' : d.1 < 0) : IsDirection d 180 := by
  refine ⟨by norm_num, by norm_num, -(d.1 : ℝ), by have : (d.1 : ℝ) < 0 := by exact_mod_cast h'
                                                   linarith, ?_, ?_⟩
  · rw [show (180 : ℝ) * π / 180 = π by ring, Real.cos_pi]; ring
  · rw [show (180 : ℝ) * π / 180 = π by ring, Real.sin_pi, h]; simp

theorem IsDirection.ne_zero {d : ℚ × ℚ} {θ : ℝ} (h : IsDirection d θ) : d ≠ (0, 0) := by
  rintro rfl
  obtain ⟨-, -, r, hr, e1, e2⟩ := h
  simp only [Rat.cast_zero] at e1 e2
  have h1 : Real.cos (θ * π / 180) = 0 := by rcases mul_eq_zero.mp e1.symm with h | h <;> [linarith; exact h]
  have h2 : Real.sin (θ * π / 180) = 0 := by rcases mul_eq_zero.mp e2.symm with h | h <;> [linarith; exact h]
  have := Real.sin_sq_add_cos_sq (θ * π / 180)
  rw [h1, h2] at this
  norm_num at this

/-! ## The closest angle -/

theorem closestIndex_eq (start s : ℚ) (hs : 0 < s) (N : ℕ) (a : ℝ) (k : ℕ) (hk : k < N)
    (h1 : k = 0 ∨ (start : ℝ) + s * k - s / 2 < a) (h2 : k + 1 = N ∨ a ≤ (start : ℝ) + s * k + s / 2) :
    closestIndex ((List.range N).map fun k : ℕ => start + s * (k : ℚ)) a = k := by
  have hs' : (0 : ℝ) < s := by exact_mod_cast hs
  have hlen : k < ((List.range N).map fun k : ℕ => start + s * (k : ℚ)).length := by simpa using hk
  unfold closestIndex
  rw [List.findIdx_eq hlen]
  have cast : ∀ m : ℕ, (((start + s * (m : ℚ) : ℚ)) : ℝ) = (start : ℝ) + s * m := by intro m; push_cast; ring
  constructor
  · rw [decide_eq_true_iff]
    intro b hb
    obtain ⟨m, hm, rfl⟩ := List.mem_map.mp hb
    rw [List.mem_range] at hm
    rw [List.getElem_map, List.getElem_range, cast, cast]
    rcases lt_trichotomy m k with h | h | h
    · have hmk : (m : ℝ) + 1 ≤ k := by exact_mod_cast h
      have hlow : (start : ℝ) + s * k - s / 2 < a := h1.resolve_left (by omega)
      have : s * (m : ℝ) + s ≤ s * k := by nlinarith
      rw [abs_le]
      have hb' : |(start : ℝ) + s * m - a| = a - (start + s * m) := by
        rw [abs_of_nonpos (by linarith)]; ring
      rw [hb']
      constructor <;> linarith
    · rw [h]
    · have hmk : (k : ℝ) + 1 ≤ m := by exact_mod_cast h
      have hup : a ≤ (start : ℝ) + s * k + s / 2 := h2.resolve_left (by omega)
      have : s * (k : ℝ) + s ≤ s * m := by nlinarith
      have hb' : |(start : ℝ) + s * m - a| = start + s * m - a := abs_of_nonneg (by linarith)
      rw [hb', abs_le]
      constructor <;> linarith
  · intro j hj
    rw [decide_eq_false_iff_not]
    intro hall
    have hb := hall (start + s * (k : ℚ)) (List.mem_map.mpr ⟨k, List.mem_range.mpr hk, rfl⟩)
    rw [List.getElem_map, List.getElem_range, cast, cast] at hb
    have hjk : (j : ℝ) + 1 ≤ k := by exact_mod_cast hj
    have hlow : (start : ℝ) + s * k - s / 2 < a := h1.resolve_left (by omega)
    have : s * (j : ℝ) + s ≤ s * k := by nlinarith
    have h3 : |(start : ℝ) + s * j - a| = a - (start + s * j) := by
      rw [abs_of_nonpos (by linarith)]; ring
    rw [h3] at hb
    have := (abs_le.mp (le_refl |(start : ℝ) + s * k - a|)).1
    rcases abs_cases ((start : ℝ) + s * k - a) with ⟨e, _⟩ | ⟨e, _⟩ <;> linarith

/-! ## The result -/

/-- The row is within the limits, at code angle `a`. -/
def At (d : ℚ × ℚ) (amin amax rmin : ℚ) (rmax : Option ℚ) (a : ℝ) : Prop :=
  ((rmin : ℝ) ≤ dist d ∧ ∀ r, rmax = some r → dist d ≤ (r : ℝ)) ∧ binDegrees d = some a ∧ (amin : ℝ) ≤ a ∧ a ≤ (amax : ℝ)

open Classical in
theorem sum_rowsWithin (d : ℕ → ℚ × ℚ) (amin amax rmin : ℚ) (rmax : Option ℚ) (q : ℝ → Bool) (g : ℕ → ℚ) (n : ℕ) :
    (((rowsWithin n d amin amax rmin rmax).filter fun p => q p.2).map fun p => g p.1).sum =
      ∑ t ∈ Finset.range n, if ∃ a, At (d t) amin amax rmin rmax a ∧ q a = true then g t else 0 := by
  induction n with
  | zero => simp [rowsWithin]
  | succ n ih =>
    unfold rowsWithin at ih ⊢
    rw [List.range_succ, List.filterMap_append, List.filter_append, List.map_append, List.sum_append, ih, Finset.sum_range_succ]
    congr 1
    have key : ∀ o, rowWithin d amin amax rmin rmax n = o →
        (((List.filterMap (rowWithin d amin amax rmin rmax) [n]).filter fun p => q p.2).map fun p => g p.1).sum =
        (o.elim 0 fun p => if q p.2 = true then g p.1 else 0) := by
      intro o ho
      cases o with
      | none => simp [List.filterMap_cons, ho]
      | some p => by_cases hq : q p.2 = true <;> simp [List.filterMap_cons, ho, hq]
    by_cases h1 : (rmin : ℝ) ≤ dist (d n) ∧ ∀ r, rmax = some r → dist (d n) ≤ (r : ℝ)
    · cases hb : binDegrees (d n) with
      | none =>
        rw [if_neg, key none (by unfold rowWithin; rw [if_pos h1, hb]; rfl)]
        · rfl
        · rintro ⟨a, ⟨-, h2, -⟩, -⟩; rw [hb] at h2; cases h2
      | some a =>
        by_cases h2 : (amin : ℝ) ≤ a ∧ a ≤ (amax : ℝ)
        · rw [key (some (n, a)) (by unfold rowWithin; rw [if_pos h1, hb, Option.bind_some, if_pos h2])]
          by_cases h3 : q a = true
          · rw [if_pos ⟨a, ⟨h1, hb, h2⟩, h3⟩]
            simp [h3]
          · rw [if_neg]
            · simp [h3]
            · rintro ⟨a', ⟨-, h4, -⟩, h5⟩; rw [hb] at h4; cases h4; exact h3 h5
        · rw [if_neg, key none (by unfold rowWithin; rw [if_pos h1, hb, Option.bind_some, if_neg h2])]
          · rfl
          · rintro ⟨a', ⟨-, h4, h5⟩, -⟩; rw [hb] at h4; cases h4; exact h2 h5
    · rw [if_neg, key none (by unfold rowWithin; rw [if_neg h1])]
      · rfl
      · rintro ⟨a, ⟨h2, -⟩, -⟩; exact h1 h2

theorem mem_rowsWithin {d : ℕ → ℚ × ℚ} {amin amax rmin : ℚ} {rmax : Option ℚ} {n : ℕ} {p : ℕ × ℝ} (h : p ∈ rowsWithin n d amin amax rmin rmax) :
    At (d p.1) amin amax rmin rmax p.2 := by
  unfold rowsWithin at h
  obtain ⟨t, -, ht⟩ := List.mem_filterMap.mp h
  unfold rowWithin at ht
  split at ht
  · rename_i h1
    cases hb : binDegrees (d t) with
    | none => rw [hb] at ht; cases ht
    | some a =>
      rw [hb] at ht
      simp only [Option.bind_some] at ht
      split at ht
      · rename_i h2
        cases ht
        exact ⟨h1, hb, h2⟩
      · cases ht
  · cases ht

theorem zipIdx_map_range {α : Type} (N : ℕ) (g : ℕ → α) : ((List.range N).map g).zipIdx = (List.range N).map fun k => (g k, k) := by
  apply List.ext_getElem (by simp)
  intro k h1 h2
  simp

theorem weightsOf_val (r : Record) (weight : Option Label) (hw : ∀ w, weight = some w → w ∈ names r) :
    ∃ ws, weightsOf r (Flow.size r) weight = .ok ws ∧ ∀ t, t < Flow.size r → ws.getD t 0 = weight.elim 1 fun w => val r w t := by
  cases weight with
  | none =>
    refine ⟨_, rfl, ?_⟩
    intro t ht
    simp [List.getD_eq_getElem?_getD, ht]
  | some l =>
    obtain ⟨c, h1, h2⟩ := field_ok (hw l rfl)
    refine ⟨c, h2, ?_⟩
    intro t _
    show _ = val r l t
    rw [val_of_col h1]

/-- The bin of the code. -/
def Assigned (r : Record) (co : Label × Label) (o : ℚ × ℚ) (amin amax rmin : ℚ) (rmax : Option ℚ) (size : ℚ) (k t : ℕ) : Prop :=
  ∃ a, At (offset r co o t) amin amax rmin rmax a ∧ closestIndex (arange amin (amax + size) size) (a - 1 / 2 * (size : ℝ) + 1 / 1000000) = k

theorem meanOf_congr {n : ℕ} {v w : ℕ → ℚ} {P Q : ℕ → Prop} (h : ∀ t, t < n → (P t ↔ Q t)) : meanOf n v w P = meanOf n v w Q := by
  classical
  have : (Finset.range n).filter P = (Finset.range n).filter Q := Finset.filter_congr fun t ht => h t (Finset.mem_range.mp ht)
  unfold meanOf
  rw [this]

/-- The number of intervals. -/
def numIntervals (amin amax size : ℚ) : ℕ := ⌈(amax + size - amin) / size⌉.toNat

theorem perAngle_eq (f : Flow) (o : ℚ × ℚ) (label : Label) (co : Label × Label) (weight : Option Label) (amin amax rmin : ℚ) (rmax : Option ℚ) (size : ℚ)
    (hsz : 0 < size) (hx : co.1 ∈ names f.data) (hy : co.2 ∈ names f.data) (hl : label ∈ names f.data) (hw : ∀ w, weight = some w → w ∈ names f.data) :
    perAngle f o label co weight amin amax rmin rmax size =
      .ok ((List.range (numIntervals (max 0 amin) (min (360 - size) amax) size)).map fun k : ℕ => (max 0 amin + size * (k : ℚ),
        meanOf (Flow.size f.data) (val f.data label) (fun t => weight.elim 1 fun w => val f.data w t)
          (Assigned f.data co o (max 0 amin) (min (360 - size) amax) rmin rmax size k))) := by
  classical
  obtain ⟨xs, hx1, hx2⟩ := field_ok hx
  obtain ⟨ys, hy1, hy2⟩ := field_ok hy
  obtain ⟨vs, hv1, hv2⟩ := field_ok hl
  obtain ⟨ws, hw1, hw2⟩ := weightsOf_val f.data weight hw
  generalize hA : max 0 amin = A
  generalize hB : min (360 - size) amax = B
  have hoff : (fun t => (xs.getD t 0 - o.1, ys.getD t 0 - o.2)) = offset f.data co o := by
    funext t
    unfold offset
    rw [val_of_col hx1, val_of_col hy1]
  unfold perAngle
  simp only [hA, hB]
  rw [if_neg (not_le.mpr hsz), hx2, ok_bind, hy2, ok_bind, hv2, ok_bind, hw1, ok_bind, hoff, if_neg]
  · unfold arange
    rw [zipIdx_map_range, List.map_map]
    congr 1
    apply List.map_congr_left
    intro k _
    simp only [Function.comp_apply]
    congr 1
    have hs := fun g => sum_rowsWithin (offset f.data co o) A B rmin rmax
      (fun a => closestIndex ((List.range ⌈(B + size - A) / size⌉.toNat).map fun k : ℕ => A + size * (k : ℚ)) (a - 1 / 2 * (size : ℝ) + 1 / 1000000) == k) g (Flow.size f.data)
    have hsum : ∀ g h : ℕ → ℚ, (∀ t, t < Flow.size f.data → g t = h t) →
        ((List.filter (fun p => closestIndex ((List.range ⌈(B + size - A) / size⌉.toNat).map fun k : ℕ => A + size * (k : ℚ)) (p.2 - 1 / 2 * (size : ℝ) + 1 / 1000000) == k)
          (rowsWithin (Flow.size f.data) (offset f.data co o) A B rmin rmax)).map fun p => g p.1).sum =
        ∑ t ∈ (Finset.range (Flow.size f.data)).filter (Assigned f.data co o A B rmin rmax size k), h t := by
      intro g h hgh
      rw [hs g, Finset.sum_filter]
      apply Finset.sum_congr rfl
      intro t ht
      have : (∃ a, At (offset f.data co o t) A B rmin rmax a ∧
          (closestIndex ((List.range ⌈(B + size - A) / size⌉.toNat).map fun k : ℕ => A + size * (k : ℚ)) (a - 1 / 2 * (size : ℝ) + 1 / 1000000) == k) = true) ↔
          Assigned f.data co o A B rmin rmax size k t := by
        unfold Assigned arange
        simp only [beq_iff_eq]
      simp only [this]
      split
      · exact hgh t (Finset.mem_range.mp ht)
      · rfl
    rw [hsum (fun t => ws.getD t 0) _ hw2, hsum (fun t => vs.getD t 0 * ws.getD t 0) _ (fun t ht => by rw [hw2 t ht, ← val_of_col hv1])]
    unfold meanOf
    by_cases h0 : 0 < ∑ t ∈ (Finset.range (Flow.size f.data)).filter (Assigned f.data co o A B rmin rmax size k), weight.elim 1 fun w => val f.data w t
    · rw [if_pos h0, if_pos]
      refine ⟨?_, h0⟩
      intro he
      have := hsum (fun t => ws.getD t 0) _ hw2
      rw [he] at this
      simp only [List.map_nil, List.sum_nil] at this
      rw [← this] at h0
      exact lt_irrefl _ h0
    · rw [if_neg h0, if_neg fun h => h0 h.2]
  · rintro ⟨h1, h2⟩
    obtain ⟨p, hp⟩ := List.exists_mem_of_ne_nil _ h2
    obtain ⟨-, -, h3, h4⟩ := mem_rowsWithin hp
    have hAB : A ≤ B := by exact_mod_cast le_trans h3 h4
    unfold arange at h1
    rw [List.map_eq_nil_iff, List.range_eq_nil, Int.toNat_eq_zero, Int.ceil_le] at h1
    have : 0 < (B + size - A) / size := div_pos (by linarith) hsz
    have h5 : (B + size - A) / size ≤ 0 := by exact_mod_cast h1
    linarith

/-! ## The interval of a direction -/

theorem closest_of_interval (A s : ℚ) (hs : 0 < s) (N k : ℕ) (hk : k < N) (θ : ℝ) (h1 : (A : ℝ) + s * k ≤ θ) (h2 : θ ≤ (A : ℝ) + s * (k + 1) - 1 / 1000000) :
    closestIndex ((List.range N).map fun k : ℕ => A + s * (k : ℚ)) (θ - 1 / 2 * (s : ℝ) + 1 / 1000000) = k := by
  apply closestIndex_eq A s hs N _ k hk
  · right; linarith
  · right; nlinarith

theorem index_lt {A B s : ℚ} (hs : 0 < s) {θ : ℝ} (h1 : θ ≤ (B : ℝ)) {k : ℕ} (h2 : (A : ℝ) + s * k ≤ θ) : k < numIntervals A B s := by
  unfold numIntervals
  have h3 : A + s * k ≤ B := by
    have : (A : ℝ) + s * k ≤ B := le_trans h2 h1
    exact_mod_cast this
  have : ((k : ℤ) : ℚ) < (B + s - A) / s := by
    rw [lt_div_iff₀ hs]; push_cast; nlinarith
  have := Int.lt_ceil.mpr this
  omega

theorem exists_interval {A s : ℚ} (hs : 0 < s) {θ : ℝ} (h : (A : ℝ) ≤ θ) : ∃ k : ℕ, (A : ℝ) + s * k ≤ θ ∧ θ < (A : ℝ) + s * (k + 1) := by
  have hs' : (0 : ℝ) < s := by exact_mod_cast hs
  refine ⟨⌊(θ - A) / s⌋₊, ?_, ?_⟩
  · have := Nat.floor_le (div_nonneg (sub_nonneg.mpr h) hs'.le)
    rw [le_div_iff₀ hs'] at this
    linarith
  · have := Nat.lt_floor_add_one ((θ - A) / s)
    rw [div_lt_iff₀ hs'] at this
    linarith

theorem interval_unique {A s : ℚ} (hs : 0 < s) {θ : ℝ} {k m : ℕ} (hk : (A : ℝ) + s * k ≤ θ ∧ θ < (A : ℝ) + s * (k + 1))
    (hm : (A : ℝ) + s * m ≤ θ ∧ θ < (A : ℝ) + s * (m + 1)) : k = m := by
  have hs' : (0 : ℝ) < s := by exact_mod_cast hs
  have h1 : (k : ℝ) < m + 1 := by
    have : (s : ℝ) * k < s * (m + 1) := by linarith [hk.1, hm.2]
    exact lt_of_mul_lt_mul_left this hs'.le
  have h2 : (m : ℝ) < k + 1 := by
    have : (s : ℝ) * m < s * (k + 1) := by linarith [hm.1, hk.2]
    exact lt_of_mul_lt_mul_left this hs'.le
  have h1' : k < m + 1 := by exact_mod_cast h1
  have h2' : m < k + 1 := by exact_mod_cast h2
  omega

theorem inRadius_iff (r : Record) (co : Label × Label) (o : ℚ × ℚ) (rmin : ℚ) (rmax : Option ℚ) (t : ℕ) :
    InRadius r co o rmin rmax t ↔ (rmin : ℝ) ≤ dist (offset r co o t) ∧ ∀ m, rmax = some m → dist (offset r co o t) ≤ (m : ℝ) := by
  constructor
  · rintro ⟨ρ, h0, h1, h2⟩
    have : ρ = dist (offset r co o t) := by
      unfold dist; rw [← h1, Real.sqrt_sq h0]
    rw [← this]; exact h2
  · intro h
    exact ⟨dist (offset r co o t), dist_nonneg _, dist_sq _, h⟩

theorem assigned_iff (r : Record) (co : Label × Label) (o : ℚ × ℚ) (A B rmin : ℚ) (rmax : Option ℚ) (s : ℚ) (hs : 0 < s) (t : ℕ)
    (hneg : ¬ ((offset r co o t).2 = 0 ∧ (offset r co o t).1 < 0))
    (hend : ∀ θ, IsDirection (offset r co o t) θ → ∀ k : ℕ, ¬ ((A : ℝ) + s * (k + 1) - 1 / 1000000 < θ ∧ θ < (A : ℝ) + s * (k + 1))) (k : ℕ) :
    Assigned r co o A B rmin rmax s k t ↔ InInterval r co o A B rmin rmax s k t := by
  have hdir : ∀ θ, IsDirection (offset r co o t) θ → binDegrees (offset r co o t) = some θ := by
    intro θ hθ
    have hne := hθ.ne_zero
    have : (offset r co o t).2 ≠ 0 ∨ 0 < (offset r co o t).1 := by
      by_contra hc
      push Not at hc
      rcases lt_or_eq_of_le hc.2 with h | h
      · exact hneg ⟨hc.1, h⟩
      · exact hne (Prod.ext h hc.1)
    obtain ⟨θ', h1, h2⟩ := binDegrees_direction _ this
    rw [h1, hθ.unique h2]
  constructor
  · rintro ⟨a, ⟨h1, h2, h3, h4⟩, h5⟩
    have hne : offset r co o t ≠ (0, 0) := by
      intro he
      unfold binDegrees at h2
      rw [if_pos ((dist_eq_zero _).mpr he)] at h2
      cases h2
    have hd : IsDirection (offset r co o t) a := by
      have : (offset r co o t).2 ≠ 0 ∨ 0 < (offset r co o t).1 := by
        by_contra hc
        push Not at hc
        rcases lt_or_eq_of_le hc.2 with h | h
        · exact hneg ⟨hc.1, h⟩
        · exact hne (Prod.ext h hc.1)
      obtain ⟨θ', h6, h7⟩ := binDegrees_direction _ this
      rw [h2] at h6
      cases h6
      exact h7
    obtain ⟨m, m1, m2⟩ := exists_interval hs h3
    have hm : m < numIntervals A B s := index_lt hs h4 m1
    have : closestIndex (arange A (B + s) s) (a - 1 / 2 * (s : ℝ) + 1 / 1000000) = m :=
      closest_of_interval A s hs _ m hm a m1 (by
        by_contra hc
        exact hend a hd m ⟨not_le.mp hc, m2⟩)
    rw [h5] at this
    subst this
    exact ⟨(inRadius_iff ..).mpr h1, a, hd, h3, h4, m1, m2⟩
  · rintro ⟨h1, θ, hd, h3, h4, h5, h6⟩
    refine ⟨θ, ⟨(inRadius_iff ..).mp h1, hdir θ hd, h3, h4⟩, ?_⟩
    exact closest_of_interval A s hs _ k (index_lt hs h4 h5) θ h5 (by
      by_contra hc
      exact hend θ hd k ⟨not_le.mp hc, h6⟩)

end Strata.Sample
