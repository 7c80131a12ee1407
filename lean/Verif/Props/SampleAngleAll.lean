import Verif.Props.SampleAngle
/-!
# C45: sampling by direction, for every map and every bin

`C45_bins_by_direction_partial` leaves out bins on the negative x axis and within 1e-6 degrees of the end of an interval.
Here the result is described without exception.
-/
namespace Strata.Sample
open Strata Strata.Flow Strata.Average Strata.Resample Strata.Gmx Strata.SimpleAverage Strata.Simple
open Finset

/-- The direction the program works with: 0 on the negative x axis, the true direction elsewhere; none at the origin. -/
def TakenDirection (d : ℚ × ℚ) (θ : ℝ) : Prop :=
  (d.2 = 0 ∧ d.1 < 0 ∧ θ = 0) ∨ (¬ (d.2 = 0 ∧ d.1 < 0) ∧ IsDirection d θ)

/-- The bin in row `t` is within the limits, and the direction taken, plus 1e-6 degrees, is in `(angle, angle + size]`. -/
def TakenIn (r : Record) (co : Label × Label) (o : ℚ × ℚ) (amin amax rmin : ℚ) (rmax : Option ℚ) (size : ℚ) (k t : ℕ) : Prop :=
  InRadius r co o rmin rmax t ∧ ∃ θ, TakenDirection (offset r co o t) θ ∧ (amin : ℝ) ≤ θ ∧ θ ≤ (amax : ℝ) ∧
    (amin : ℝ) + size * k < θ + 1 / 1000000 ∧ θ + 1 / 1000000 ≤ (amin : ℝ) + size * (k + 1)

theorem taken_iff (d : ℚ × ℚ) (θ : ℝ) : binDegrees d = some θ ↔ TakenDirection d θ := by
  by_cases hneg : d.2 = 0 ∧ d.1 < 0
  · rw [binDegrees_negative_axis d hneg.1 hneg.2]
    constructor
    · intro h; cases h; exact Or.inl ⟨hneg.1, hneg.2, rfl⟩
    · rintro (⟨_, _, h⟩ | ⟨h, _⟩)
      · rw [h]
      · exact absurd hneg h
  · have key : d ≠ (0, 0) → ∃ θ', binDegrees d = some θ' ∧ IsDirection d θ' := by
      intro hne
      apply binDegrees_direction
      by_contra hc
      push Not at hc
      rcases lt_or_eq_of_le hc.2 with h | h
      · exact hneg ⟨hc.1, h⟩
      · exact hne (Prod.ext h hc.1)
    constructor
    · intro h
      have hne : d ≠ (0, 0) := by
        intro he
        unfold binDegrees at h
        rw [if_pos ((dist_eq_zero _).mpr he)] at h
        cases h
      obtain ⟨θ', h1, h2⟩ := key hne
      rw [h] at h1
      cases h1
      exact Or.inr ⟨hneg, h2⟩
    · rintro (⟨h1, h2, _⟩ | ⟨_, h⟩)
      · exact absurd ⟨h1, h2⟩ hneg
      · obtain ⟨θ', h1, h2⟩ := key h.ne_zero
        rw [h1, h.unique h2]

theorem assigned_taken (r : Record) (co : Label × Label) (o : ℚ × ℚ) (A B rmin : ℚ) (rmax : Option ℚ) (s : ℚ) (hs : 1 / 1000000 ≤ s) (t k : ℕ) :
    Assigned r co o A B rmin rmax s k t ↔ TakenIn r co o A B rmin rmax s k t := by
  have hs0 : 0 < s := lt_of_lt_of_le (by norm_num) hs
  have hs' : (0 : ℝ) < s := by exact_mod_cast hs0
  have hs1 : (1 / 1000000 : ℝ) ≤ s := by
    have : ((1 / 1000000 : ℚ) : ℝ) ≤ s := by exact_mod_cast hs
    simpa using this
  -- the index of an angle
  have hex : ∀ a : ℝ, (A : ℝ) ≤ a → ∃ m : ℕ, (A : ℝ) + s * m < a + 1 / 1000000 ∧ a + 1 / 1000000 ≤ (A : ℝ) + s * (m + 1) := by
    intro a ha
    have hpos : 0 < (a + 1 / 1000000 - A) / s := div_pos (by linarith) hs'
    have hc : 1 ≤ ⌈(a + 1 / 1000000 - A) / s⌉₊ := Nat.one_le_iff_ne_zero.mpr (Nat.ceil_pos.mpr hpos).ne'
    obtain ⟨m, hm⟩ := Nat.exists_eq_add_of_le hc
    have h1 : ((m : ℕ) : ℝ) < (a + 1 / 1000000 - A) / s := Nat.lt_ceil.mp (by omega)
    have h2 : (a + 1 / 1000000 - A) / s ≤ ((m + 1 : ℕ) : ℝ) := by
      have := Nat.le_ceil ((a + 1 / 1000000 - A) / s)
      rw [hm, Nat.add_comm 1 m] at this
      exact this
    rw [lt_div_iff₀ hs'] at h1
    rw [div_le_iff₀ hs'] at h2
    push_cast at h2
    exact ⟨m, by linarith, by linarith⟩
  have hlt : ∀ (a : ℝ) (m : ℕ), a ≤ (B : ℝ) → (A : ℝ) + s * m < a + 1 / 1000000 → m < numIntervals A B s := by
    intro a m h1 h2
    unfold numIntervals
    have h3 : A + s * m < B + s := by
      have : (A : ℝ) + s * m < B + s := by linarith
      exact_mod_cast this
    have : ((m : ℤ) : ℚ) < (B + s - A) / s := by
      rw [lt_div_iff₀ hs0]; push_cast; linarith
    have := Int.lt_ceil.mpr this
    omega
  have hcl : ∀ (a : ℝ) (m : ℕ), a ≤ (B : ℝ) → (A : ℝ) + s * m < a + 1 / 1000000 → a + 1 / 1000000 ≤ (A : ℝ) + s * (m + 1) →
      closestIndex (arange A (B + s) s) (a - 1 / 2 * (s : ℝ) + 1 / 1000000) = m := by
    intro a m h1 h2 h3
    unfold arange
    exact closestIndex_eq A s hs0 _ _ m (hlt a m h1 h2) (Or.inr (by linarith)) (Or.inr (by linarith))
  constructor
  · rintro ⟨a, ⟨h1, h2, h3, h4⟩, h5⟩
    obtain ⟨m, m1, m2⟩ := hex a h3
    have := hcl a m h4 m1 m2
    rw [h5] at this
    subst this
    exact ⟨(inRadius_iff ..).mpr h1, a, (taken_iff _ _).mp h2, h3, h4, m1, m2⟩
  · rintro ⟨h1, θ, hd, h3, h4, h5, h6⟩
    exact ⟨θ, ⟨(inRadius_iff ..).mp h1, (taken_iff _ _).mpr hd, h3, h4⟩, hcl θ k h4 h5 h6⟩

/-- **C45, as coded.** For every map and every interval size of at least 1e-6 degrees: the result has the angles
`A, A + size, …` and for each of them the weighted mean of the bins within the limits whose direction is in
`(angle - 1e-6, angle + size - 1e-6]`, where the bins on the negative x axis have direction 0. -/
theorem C45_as_coded (f : Flow) (o : ℚ × ℚ) (label : Label) (co : Label × Label) (weight : Option Label) (amin amax rmin : ℚ)
    (rmax : Option ℚ) (size : ℚ) (hsz : 1 / 1000000 ≤ size) (hx : co.1 ∈ names f.data) (hy : co.2 ∈ names f.data) (hl : label ∈ names f.data)
    (hw : ∀ w, weight = some w → w ∈ names f.data) (A B : ℚ) (hA : A = max 0 amin) (hB : B = min (360 - size) amax) :
    ∃ out, perAngle f o label co weight amin amax rmin rmax size = .ok out ∧
      (out.length : ℤ) = max 0 ⌈(B + size - A) / size⌉ ∧
      ∀ k, k < out.length → out.getD k (0, 0) = (A + size * (k : ℚ),
        meanOf (Flow.size f.data) (val f.data label) (fun t => weight.elim 1 fun w => val f.data w t)
          (TakenIn f.data co o A B rmin rmax size k)) := by
  subst hA hB
  refine ⟨_, perAngle_eq f o label co weight amin amax rmin rmax size (lt_of_lt_of_le (by norm_num) hsz) hx hy hl hw, ?_, ?_⟩
  · rw [List.length_map, List.length_range]
    unfold numIntervals
    rw [Int.toNat_eq_max, max_comm]
  · intro k hk
    rw [List.length_map, List.length_range] at hk
    rw [List.getD_eq_getElem?_getD, List.getElem?_eq_getElem (by simpa using hk), Option.getD_some, List.getElem_map, List.getElem_range]
    congr 1
    apply meanOf_congr
    intro t _
    exact assigned_taken _ _ _ _ _ _ _ _ hsz t k

/-- A bin on the negative axis and one in the diagonal direction are both taken, at 0 and 45 degrees; the intervals
of 45 degrees to which they belong are the first and the second. -/
example : TakenIn [("X", [-1, 1]), ("Y", [0, 1])] ("X", "Y") (0, 0) 0 315 0 none 45 0 0 ∧
    TakenIn [("X", [-1, 1]), ("Y", [0, 1])] ("X", "Y") (0, 0) 0 315 0 none 45 1 1 := by
  have o0 : offset [("X", [-1, 1]), ("Y", [0, 1])] ("X", "Y") (0, 0) 0 = (-1, 0) := by decide +kernel
  have o1 : offset [("X", [-1, 1]), ("Y", [0, 1])] ("X", "Y") (0, 0) 1 = (1, 1) := by decide +kernel
  constructor
  · refine ⟨?_, 0, Or.inl ?_, ?_, ?_, ?_, ?_⟩
    · exact ⟨1, by norm_num, by rw [o0]; norm_num, by norm_num, by simp⟩
    · rw [o0]; norm_num
    all_goals norm_num
  · refine ⟨?_, 45, Or.inr ⟨?_, ?_⟩, ?_, ?_, ?_, ?_⟩
    · exact ⟨Real.sqrt 2, Real.sqrt_nonneg _, by rw [o1]; norm_num, by norm_num, by simp⟩
    · rw [o1]; norm_num
    · rw [o1]; exact isDirection_diagonal
    all_goals norm_num

end Strata.Sample
