import Verif.Model.FloatAngles
import Verif.Props.FloatFiles
/-!
# The angles of `sample_per_angle_from` in floating point: C135
-/
namespace Strata.FloatAngles
open Strata Strata.Flow Strata.FloatAverage Strata.FloatGrid Strata.FloatFiles

/-- The intended angles: from `amin` (at least 0) in steps of `size` for as long as they are below `amax + size` (`amax` at most `360 - size`). -/
def intended (amin amax size : ℚ) : List ℚ := Sample.arange (max 0 amin) (min (360 - size) amax + size) size

/-- Without rounding, the angles are the intended ones. -/
theorem C135_exact (amin amax size : ℚ) : outAngles id amin amax size = intended amin amax size := by
  unfold outAngles arange intended Sample.arange count
  simp only [id]
  refine List.map_congr_left fun k _ => ?_
  ring

/-- **C135.** If `amax` is `m` steps above `amin`, up to a sixteenth of a step, there should be `m + 1` angles, the last one at `amax`.  There are
as many exactly if the computed quotient is not above `m + 1`, and else there is one more, above `amax`. -/
theorem C135_count_iff (u : ℚ) (hu : 0 ≤ u) (hu1 : u ≤ 1 / 64) (fl : ℚ → ℚ) (hfl : Rounds u fl) (amin amax size : ℚ) (h0 : 0 ≤ amin) (h1 : amin ≤ amax) (hs : 0 < size)
    (m : ℕ) (hm : |amax - (amin + m * size)| ≤ size / 16) (hsmall : u * (amax + size) ≤ size / 64) :
    count fl amin amax size = if fl (fl (fl (amax + size) - amin) / size) ≤ (m : ℚ) + 1 then m + 1 else m + 2 := by
  have hX := hfl (amax + size)
  have hX0 : 0 ≤ amax + size := by linarith
  rw [abs_of_nonneg hX0] at hX
  unfold count
  generalize hx : fl (amax + size) = X at *
  have hXX : |X - (amax + size)| ≤ size / 64 := by linarith
  obtain ⟨x1, x2⟩ := abs_le.mp hXX
  have hY := hfl (X - amin)
  have hYb : |X - amin| ≤ 2 * (amax + size) := by
    rw [abs_le]; constructor <;> linarith
  generalize hy : fl (X - amin) = Y at *
  have hYY : |Y - (X - amin)| ≤ size / 32 := by
    have := mul_le_mul_of_nonneg_left hYb hu
    linarith
  obtain ⟨y1, y2⟩ := abs_le.mp hYY
  have hYa : |Y| ≤ 3 * (amax + size) := by
    rw [abs_le]; constructor <;> linarith
  have hq := hfl (Y / size)
  have hqb : |Y / size| * u ≤ 3 / 64 := by
    rw [abs_div, abs_of_pos hs, div_mul_eq_mul_div, div_le_iff₀ hs]
    have := mul_le_mul_of_nonneg_left hYa hu
    linarith
  generalize hqq : fl (Y / size) = q at *
  have hd : |Y / size - (m + 1)| ≤ 1 / 16 + 1 / 64 + 1 / 32 := by
    have e : Y / size - (m + 1) = (Y - (m + 1) * size) / size := by field_simp
    rw [e, abs_div, abs_of_pos hs, div_le_iff₀ hs]
    obtain ⟨a, b⟩ := abs_le.mp hm
    rw [abs_le]; constructor <;> linarith
  obtain ⟨d1, d2⟩ := abs_le.mp hd
  have hq' : |q - Y / size| ≤ 3 / 64 := by linarith
  obtain ⟨q1, q2⟩ := abs_le.mp hq'
  split_ifs with hc
  · have : ⌈q⌉ = ((m + 1 : ℕ) : ℤ) := by
      rw [Int.ceil_eq_iff]; push_cast; exact ⟨by linarith, hc⟩
    rw [this]; rfl
  · have : ⌈q⌉ = ((m + 2 : ℕ) : ℤ) := by
      rw [Int.ceil_eq_iff]; push_cast; exact ⟨by push Not at hc; linarith, by linarith⟩
    rw [this]; rfl

/-- **C135.** In double precision the angles are the intended ones whenever the limits and the size are whole multiples of a power of two of a degree, such as
whole or half degrees. -/
theorem C135_binary_fractions_partial (q : ℕ) (hq : q ≤ 40) (A B S : ℤ) (hA0 : 0 ≤ A) (hA : A ≤ 360 * 2 ^ q) (hB : 0 ≤ B) (hS0 : 1 ≤ S) (hS : S ≤ 360 * 2 ^ q) :
    outAngles (roundBits 53) (A / 2 ^ q) (B / 2 ^ q) (S / 2 ^ q) = intended (A / 2 ^ q) (B / 2 ^ q) (S / 2 ^ q) := by
  have hq2 : (2 : ℤ) ^ q ≤ 2 ^ 40 := pow_le_pow_right₀ (by norm_num) hq
  have hq1 : (1 : ℤ) ≤ 2 ^ q := one_le_pow₀ (by norm_num)
  have hqq : (0 : ℚ) < 2 ^ q := by positivity
  -- numbers with at most 53 digits are not rounded
  have R : ∀ m : ℤ, |m| ≤ 2 ^ 53 → roundBits 53 ((m : ℚ) / 2 ^ q) = (m : ℚ) / 2 ^ q := by
    intro m hm
    have := roundBits_of_digits (p := 53) (by norm_num) m (-(q : ℤ)) hm
    rw [zpow_neg, zpow_natCast] at this
    exact this
  have e360 : (360 : ℚ) - (S : ℚ) / 2 ^ q = ((360 * 2 ^ q - S : ℤ) : ℚ) / 2 ^ q := by push_cast; field_simp
  have r360 : roundBits 53 (360 - (S : ℚ) / 2 ^ q) = 360 - (S : ℚ) / 2 ^ q := by
    rw [e360, R]
    rw [abs_le]; constructor <;> omega
  have hmax : max 0 ((A : ℚ) / 2 ^ q) = (A : ℚ) / 2 ^ q := max_eq_right (div_nonneg (by exact_mod_cast hA0) hqq.le)
  obtain ⟨C, hC, hC0, hC1⟩ : ∃ C : ℤ, min (360 - (S : ℚ) / 2 ^ q) ((B : ℚ) / 2 ^ q) = (C : ℚ) / 2 ^ q ∧ 0 ≤ C ∧ C ≤ 360 * 2 ^ q := by
    rcases le_total (360 - (S : ℚ) / 2 ^ q) ((B : ℚ) / 2 ^ q) with h | h
    · exact ⟨360 * 2 ^ q - S, by rw [min_eq_left h, e360], by omega, by omega⟩
    · refine ⟨B, min_eq_right h, hB, ?_⟩
      rw [e360, div_le_div_iff_of_pos_right hqq] at h
      have : B ≤ 360 * 2 ^ q - S := by exact_mod_cast h
      omega
  unfold outAngles intended
  rw [r360, hmax, hC]
  have r1 : roundBits 53 ((C : ℚ) / 2 ^ q + S / 2 ^ q) = (C : ℚ) / 2 ^ q + S / 2 ^ q := by
    have e : (C : ℚ) / 2 ^ q + S / 2 ^ q = ((C + S : ℤ) : ℚ) / 2 ^ q := by push_cast; ring
    rw [e, R]; rw [abs_le]; constructor <;> omega
  have r2 : roundBits 53 ((C : ℚ) / 2 ^ q + S / 2 ^ q - A / 2 ^ q) = (C : ℚ) / 2 ^ q + S / 2 ^ q - A / 2 ^ q := by
    have e : (C : ℚ) / 2 ^ q + S / 2 ^ q - A / 2 ^ q = ((C + S - A : ℤ) : ℚ) / 2 ^ q := by push_cast; ring
    rw [e, R]; rw [abs_le]; constructor <;> omega
  have r3 : roundBits 53 ((A : ℚ) / 2 ^ q + S / 2 ^ q) = (A : ℚ) / 2 ^ q + S / 2 ^ q := by
    have e : (A : ℚ) / 2 ^ q + S / 2 ^ q = ((A + S : ℤ) : ℚ) / 2 ^ q := by push_cast; ring
    rw [e, R]; rw [abs_le]; constructor <;> omega
  have r4 : roundBits 53 ((A : ℚ) / 2 ^ q + S / 2 ^ q - A / 2 ^ q) = (S : ℚ) / 2 ^ q := by
    rw [add_sub_cancel_left, R]; rw [abs_le]; constructor <;> omega
  have hcount : count (roundBits 53) ((A : ℚ) / 2 ^ q) ((C : ℚ) / 2 ^ q) ((S : ℚ) / 2 ^ q) =
      ⌈((C : ℚ) / 2 ^ q + S / 2 ^ q - A / 2 ^ q) / (S / 2 ^ q)⌉.toNat := by
    unfold count
    rw [r1, r2]
    have e : ((C : ℚ) / 2 ^ q + S / 2 ^ q - A / 2 ^ q) / (S / 2 ^ q) = ((C + S - A : ℤ) : ℚ) / (S.toNat : ℕ) := by
      have hSn : ((S.toNat : ℕ) : ℚ) = (S : ℚ) := by
        have : ((S.toNat : ℕ) : ℤ) = S := Int.toNat_of_nonneg (by omega)
        exact_mod_cast this
      have hSq : (S : ℚ) ≠ 0 := by have : S ≠ 0 := by omega
                                   exact_mod_cast this
      rw [hSn]
      push_cast
      field_simp
    rw [e, ceil_quotient (by norm_num) _ _ (by omega) (by rw [abs_lt]; constructor <;> omega)]
  unfold arange Sample.arange
  rw [hcount]
  refine List.map_congr_left fun k hk => ?_
  rw [List.mem_range] at hk
  -- every angle is a whole multiple below the end
  have hSq : (0 : ℚ) < (S : ℚ) / 2 ^ q := div_pos (by exact_mod_cast (by omega : 0 < S)) hqq
  have hk1 : (k : ℤ) < ⌈((C : ℚ) / 2 ^ q + S / 2 ^ q - A / 2 ^ q) / (S / 2 ^ q)⌉ := by omega
  rw [Int.lt_ceil, lt_div_iff₀ hSq] at hk1
  have hk2 : (k : ℤ) * S < C + S - A := by
    have e : (((k : ℤ) : ℚ) * (S / 2 ^ q)) = ((k * S : ℤ) : ℚ) / 2 ^ q := by push_cast; ring
    have e' : (C : ℚ) / 2 ^ q + S / 2 ^ q - A / 2 ^ q = ((C + S - A : ℤ) : ℚ) / 2 ^ q := by push_cast; ring
    rw [e, e', div_lt_div_iff_of_pos_right hqq] at hk1
    exact_mod_cast hk1
  have hk0 : 0 ≤ (k : ℤ) * S := mul_nonneg (Int.natCast_nonneg k) (by omega)
  rw [r3, r4]
  have e1 : (k : ℚ) * ((S : ℚ) / 2 ^ q) = (((k : ℤ) * S : ℤ) : ℚ) / 2 ^ q := by push_cast; ring
  generalize (k : ℤ) * S = K at *
  rw [e1, R K (by rw [abs_le]; constructor <;> omega)]
  have e2 : (A : ℚ) / 2 ^ q + (K : ℚ) / 2 ^ q = ((A + K : ℤ) : ℚ) / 2 ^ q := by push_cast; ring
  rw [e2, R _ (by rw [abs_le]; constructor <;> omega), ← e2, ← e1]
  ring

/-- Half degrees from 1 to 3. -/
example : outAngles (roundBits 53) 1 3 (1 / 2) = [1, 3 / 2, 2, 5 / 2, 3] := by decide +kernel

/-- **C135.** False in general in double precision: from 0 to 0.2 in steps of 0.1 there is a fourth angle above 0.2, and in 161 parts the full
circle has 162 angles. -/
theorem C135_counterexample :
    (outAngles (roundBits 53) 0 (roundBits 53 (1 / 5)) (roundBits 53 (1 / 10))).length = 4 ∧
    (∃ a ∈ outAngles (roundBits 53) 0 (roundBits 53 (1 / 5)) (roundBits 53 (1 / 10)), roundBits 53 (1 / 5) + 9 / 100 < a) ∧
    intended 0 (1 / 5) (1 / 10) = [0, 1 / 10, 1 / 5] ∧
    (outAngles (roundBits 53) 0 360 (roundBits 53 (360 / 161))).length = 162 ∧ (intended 0 360 (360 / 161)).length = 161 := by
  refine ⟨?_, ?_, ?_, ?_, ?_⟩ <;> decide +kernel

/-- The hypotheses of `C135_count_iff` hold in this case. -/
example : |roundBits 53 (1 / 5) - (0 + (2 : ℕ) * roundBits 53 (1 / 10))| ≤ roundBits 53 (1 / 10) / 16 ∧
    1 / 2 ^ 53 * (roundBits 53 (1 / 5) + roundBits 53 (1 / 10)) ≤ roundBits 53 (1 / 10) / 64 := by decide +kernel

end Strata.FloatAngles
