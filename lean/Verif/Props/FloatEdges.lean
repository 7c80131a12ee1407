import Verif.Model.FloatEdges
import Verif.Props.ContactLine
import Verif.Props.FloatAverage
/-!
# Grid positions of contact line edges in floating point: C136
-/
namespace Strata.FloatEdges
open Strata Strata.FloatAverage

/-- Without rounding, the position is the exact one. -/
theorem C136_exact (x dx : ℚ) : coordOnGrid id x dx = ContactLine.coordOnGrid x dx := rfl

/-- **C136.** With any rounding of relative error at most `u`, the position on the grid differs from the given one by at most half a bin, up to rounding. -/
theorem C136_half_a_bin (u : ℚ) (hu : 0 ≤ u) (hu1 : u ≤ 1) (fl : ℚ → ℚ) (hfl : Rounds u fl) (x dx : ℚ) (hdx : 0 < dx) :
    |coordOnGrid fl x dx - x| ≤ dx / 2 + u * (7 * |x| + 2 * dx) := by
  unfold coordOnGrid
  have hq := hfl (x / dx)
  have hf1 := Int.floor_le (fl (x / dx))
  have hf2 := Int.lt_floor_add_one (fl (x / dx))
  have hg : gridIndex fl x dx = ⌊fl (x / dx)⌋ := rfl
  rw [← hg] at hf1 hf2
  generalize (gridIndex fl x dx : ℚ) = n at *
  generalize fl (x / dx) = q at *
  obtain ⟨q1, q2⟩ := abs_le.mp hq
  have hxq : x / dx * dx = x := by field_simp
  have hxa : |x / dx| * dx = |x| := by rw [abs_div, abs_of_pos hdx]; field_simp
  set b : ℚ := n + 1 / 2 with hb
  have h1 : |b - x / dx| ≤ 1 / 2 + u * |x / dx| := by
    rw [abs_le]; constructor <;> linarith
  have h1' : |b * dx - x| ≤ dx / 2 + u * |x| := by
    have e : b * dx - x = (b - x / dx) * dx := by rw [sub_mul, hxq]
    rw [e, abs_mul, abs_of_pos hdx]
    have := mul_le_mul_of_nonneg_right h1 hdx.le
    rw [add_mul, mul_assoc, hxa] at this
    linarith
  have hr := hfl b
  generalize fl b = c at *
  have hbd : |b * dx| ≤ dx / 2 + (1 + u) * |x| := by
    have e : b * dx = (b * dx - x) + x := by ring
    rw [e]
    refine le_trans (abs_add_le _ _) ?_
    linarith
  have h2 : |c * dx - b * dx| ≤ u * (dx / 2 + (1 + u) * |x|) := by
    have e : c * dx - b * dx = (c - b) * dx := by ring
    rw [e, abs_mul, abs_of_pos hdx]
    have h3 := mul_le_mul_of_nonneg_right hr hdx.le
    have h4 : u * |b| * dx = u * |b * dx| := by rw [abs_mul, abs_of_pos hdx]; ring
    rw [h4] at h3
    exact le_trans h3 (mul_le_mul_of_nonneg_left hbd hu)
  have hs := hfl (c * dx)
  have hcd : |c * dx| ≤ (1 + u) * (dx / 2 + (1 + u) * |x|) := by
    have e : c * dx = (c * dx - b * dx) + b * dx := by ring
    rw [e]
    refine le_trans (abs_add_le _ _) ?_
    linarith
  have e : fl (c * dx) - x = (fl (c * dx) - c * dx) + (c * dx - b * dx) + (b * dx - x) := by ring
  rw [e]
  have t1 := abs_add_le ((fl (c * dx) - c * dx) + (c * dx - b * dx)) (b * dx - x)
  have t2 := abs_add_le (fl (c * dx) - c * dx) (c * dx - b * dx)
  have f1 := mul_le_mul_of_nonneg_left hcd hu
  have hax := abs_nonneg x
  have m1 : u * |x| * u ≤ u * |x| * 1 := mul_le_mul_of_nonneg_left hu1 (mul_nonneg hu hax)
  have m2 : u * |x| * u * u ≤ u * |x| * 1 := by
    have : u * |x| * u * u ≤ u * |x| * u * 1 := mul_le_mul_of_nonneg_left hu1 (mul_nonneg (mul_nonneg hu hax) hu)
    linarith
  have m3 : u * dx * u ≤ u * dx * 1 := mul_le_mul_of_nonneg_left hu1 (mul_nonneg hu hdx.le)
  nlinarith

/-- **C136.** The bin is the exact one for every position that is further from the ends of its bin than the rounding error of the quotient. -/
theorem C136_same_bin_partial (u : ℚ) (fl : ℚ → ℚ) (hfl : Rounds u fl) (x dx : ℚ) (hdx : 0 < dx) (k : ℤ) (h : |((k : ℚ) + 1 / 2) * dx - x| + u * |x| < dx / 2) :
    gridIndex fl x dx = k ∧ gridIndex id x dx = k := by
  have hq := hfl (x / dx)
  have hd : |(k : ℚ) + 1 / 2 - x / dx| + u * |x / dx| < 1 / 2 := by
    have e : (k : ℚ) + 1 / 2 - x / dx = (((k : ℚ) + 1 / 2) * dx - x) / dx := by field_simp
    rw [e, abs_div, abs_div, abs_of_pos hdx, ← mul_div_assoc, ← add_div, div_lt_iff₀ hdx]
    linarith
  obtain ⟨a, b⟩ := abs_le.mp (le_refl |(k : ℚ) + 1 / 2 - x / dx|)
  obtain ⟨q1, q2⟩ := abs_le.mp hq
  have hu : 0 ≤ u * |x / dx| := le_trans (abs_nonneg _) hq
  unfold gridIndex
  constructor
  · rw [Int.floor_eq_iff]; constructor <;> linarith
  · rw [Int.floor_eq_iff]
    simp only [id]
    constructor <;> linarith

example : |(((2 : ℤ) : ℚ) + 1 / 2) * roundBits 53 (1 / 10) - roundBits 53 (27 / 100)| + 1 / 2 ^ 53 * |roundBits 53 (27 / 100)| < roundBits 53 (1 / 10) / 2 ∧
    gridIndex (roundBits 53) (roundBits 53 (27 / 100)) (roundBits 53 (1 / 10)) = 2 := by decide +kernel

/-- **C136.** At the end of a bin the neighbouring bin may be taken: in double precision 0.3 lies in bin 2 of a grid with the spacing 0.1, and 0.4 in bin 4, so that
two edges one bin apart are put two bins apart. -/
theorem C136_counterexample :
    gridIndex (roundBits 53) (roundBits 53 (3 / 10)) (roundBits 53 (1 / 10)) = 2 ∧ gridIndex id (3 / 10) (1 / 10) = 3 ∧
    gridIndex (roundBits 53) (roundBits 53 (4 / 10)) (roundBits 53 (1 / 10)) = 4 ∧ gridIndex id (4 / 10) (1 / 10) = 4 := by
  refine ⟨?_, ?_, ?_, ?_⟩ <;> decide +kernel

end Strata.FloatEdges
