import Verif.Model.FloatFiles
import Verif.Proofs.FloatGrid
import Verif.Props.Files
/-!
# Output numbers in floating point: C133
-/
namespace Strata.FloatFiles
open Strata Strata.Files Strata.FloatAverage Strata.FloatGrid

theorem roundBits_int {p : ℕ} (hp : 1 ≤ p) (m : ℤ) (hm : |m| ≤ 2 ^ p) : roundBits p (m : ℚ) = m := by
  have := roundBits_of_digits hp m 0 hm
  simpa using this

/-- Rounding the quotient of two integers to `p` digits does not move it past a whole number. -/
theorem ceil_quotient {p : ℕ} (hp : 1 ≤ p) (b : ℤ) (g : ℕ) (hg : 1 ≤ g) (hb : |b| < 2 ^ p) :
    ⌈roundBits p ((b : ℚ) / g)⌉ = ⌈(b : ℚ) / g⌉ := by
  have hg0 : (0 : ℚ) < g := by exact_mod_cast hg
  by_cases hd : (g : ℤ) ∣ b
  · obtain ⟨m, rfl⟩ := hd
    have e : (((g : ℤ) * m : ℤ) : ℚ) / g = (m : ℚ) := by
      push_cast; field_simp
    have hm : |m| ≤ 2 ^ p := by
      have h1 : |m| ≤ |(g : ℤ) * m| := by
        rw [abs_mul, Nat.abs_cast]
        have : (1 : ℤ) ≤ g := by exact_mod_cast hg
        nlinarith [abs_nonneg m]
      omega
    rw [e, roundBits_int hp m hm]
  · set q : ℚ := (b : ℚ) / g with hq
    set n : ℤ := ⌈q⌉ with hn
    have hqg : q * g = b := by rw [hq]; field_simp
    have up : (n : ℚ) * g - b ≥ 1 := by
      have h1 : q ≤ n := Int.le_ceil q
      have h2 : (b : ℚ) ≤ (n : ℚ) * g := by rw [← hqg]; exact mul_le_mul_of_nonneg_right h1 hg0.le
      have h3 : b ≤ n * (g : ℤ) := by exact_mod_cast h2
      have h4 : b ≠ n * (g : ℤ) := fun h => hd ⟨n, by rw [h, mul_comm]⟩
      have h5 : b + 1 ≤ n * (g : ℤ) := by omega
      have h6 : (b : ℚ) + 1 ≤ (n : ℚ) * g := by exact_mod_cast h5
      linarith
    have low : (b : ℚ) - ((n : ℚ) - 1) * g ≥ 1 := by
      have h1 : (n : ℚ) - 1 < q := by have := Int.ceil_lt_add_one q; rw [← hn] at this; linarith
      have h2 : ((n : ℚ) - 1) * g < b := by rw [← hqg]; exact mul_lt_mul_of_pos_right h1 hg0
      have h3 : (n - 1) * (g : ℤ) < b := by exact_mod_cast h2
      have h5 : (n - 1) * (g : ℤ) + 1 ≤ b := by omega
      have h6 : ((n : ℚ) - 1) * g + 1 ≤ (b : ℚ) := by exact_mod_cast h5
      linarith
    have err : |roundBits p q - q| * g < 1 := by
      have h1 := rounds_roundBits p q
      have h2 : |q| * g = |(b : ℚ)| := by rw [← hqg, abs_mul, abs_of_pos hg0]
      have h3 : |(b : ℚ)| < 2 ^ p := by exact_mod_cast hb
      calc |roundBits p q - q| * g ≤ (1 / 2 ^ p * |q|) * g := mul_le_mul_of_nonneg_right h1 hg0.le
        _ = |(b : ℚ)| / 2 ^ p := by rw [mul_assoc, h2]; ring
        _ < 1 := by rw [div_lt_one (by positivity)]; exact h3
    obtain ⟨e1, e2⟩ := abs_le.mp (le_refl |roundBits p q - q|)
    rw [Int.ceil_eq_iff]
    constructor
    · by_contra hc
      rw [not_lt] at hc
      have : q - ((n : ℚ) - 1) ≤ |roundBits p q - q| := by linarith
      have := mul_le_mul_of_nonneg_right this hg0.le
      nlinarith
    · by_contra hc
      rw [not_le] at hc
      have : (n : ℚ) - q ≤ |roundBits p q - q| := by linarith
      have := mul_le_mul_of_nonneg_right this hg0.le
      nlinarith

/-- **C133.** In arithmetic of `p` binary digits (53 in double precision) group `k` of `group` files from `begin` gets the least number that is not below
`begin / group`, plus `k`, as long as these numbers have at most `p` digits. -/
theorem C133_output_number {p : ℕ} (hp : 1 ≤ p) (b : ℤ) (g : ℕ) (hg : 1 ≤ g) (hb : |b| < 2 ^ p) (k : ℕ) (hk : ⌈(b : ℚ) / g⌉ + k ≤ 2 ^ p) :
    outputNumber (roundBits p) (firstOutput (roundBits p) b g) k = ((⌈(b : ℚ) / g⌉ + k : ℤ) : ℚ) := by
  have hg0 : (0 : ℚ) < g := by exact_mod_cast hg
  have lower : -(2 ^ p : ℤ) ≤ ⌈(b : ℚ) / g⌉ := by
    have h1 : -(2 ^ p : ℤ) ≤ b := by have := (abs_lt.mp hb).1; omega
    rcases le_or_gt 0 b with h | h
    · have : (0 : ℤ) ≤ ⌈(b : ℚ) / g⌉ := Int.ceil_nonneg (div_nonneg (by exact_mod_cast h) hg0.le)
      have : (0 : ℤ) ≤ 2 ^ p := by positivity
      omega
    · have h2 : (b : ℚ) ≤ (b : ℚ) / g := by
        rw [le_div_iff₀ hg0]
        have : (1 : ℚ) ≤ g := by exact_mod_cast hg
        have : (b : ℚ) < 0 := by exact_mod_cast h
        nlinarith
      have h3 : (b : ℚ) ≤ (⌈(b : ℚ) / g⌉ : ℤ) := h2.trans (Int.le_ceil _)
      have h4 : b ≤ ⌈(b : ℚ) / g⌉ := by exact_mod_cast h3
      omega
  induction k with
  | zero => rw [outputNumber, firstOutput, ceil_quotient hp b g hg hb]; simp
  | succ k ih =>
    rw [outputNumber, ih (by push_cast at hk; omega)]
    have e : (((⌈(b : ℚ) / g⌉ + k : ℤ) : ℚ) + 1) = ((⌈(b : ℚ) / g⌉ + (k + 1 : ℕ) : ℤ) : ℚ) := by push_cast; ring
    rw [e, roundBits_int hp]
    rw [abs_le]
    push_cast at hk ⊢
    exact ⟨by omega, hk⟩

/-- **C133.** Pairing groups of files with output names in double precision gives exactly the pairs of exact arithmetic (C05). -/
theorem C133_groups_to_singles (dir : Dir) (base output ext : Text) (outext : Option Text) (g : ℕ) (hg : 1 ≤ g) (b : ℤ) (hb : |b| < 2 ^ 53) (e : Option ℤ)
    (hn : ⌈(b : ℚ) / g⌉ + (yieldGroups dir base ext g false b e).length ≤ 2 ^ 53) :
    findGroupsToSingles (roundBits 53) dir base output ext outext g b e = Files.findGroupsToSingles dir base output ext outext g false b e := by
  unfold findGroupsToSingles Files.findGroupsToSingles
  obtain ⟨k, hk, heq, -, hstop⟩ := genFilenames_spec output (outext.getD ext) none (yieldGroups dir base ext g false b e).length (ceilDiv b g)
  have : k = (yieldGroups dir base ext g false b e).length := by
    by_contra hc
    have := hstop (by omega)
    simp [leEnd] at this
  simp only [Bool.false_eq_true, if_false]
  rw [heq, this]
  congr 1
  refine List.map_congr_left fun i hi => ?_
  rw [List.mem_range] at hi
  rw [C133_output_number (by norm_num) b g hg hb i (by
    have : (i : ℤ) ≤ (yieldGroups dir base ext g false b e).length := by exact_mod_cast hi.le
    omega)]
  unfold outputName ceilDiv
  congr 1
  split_ifs <;> simp

example : findGroupsToSingles (roundBits 53) ["00003".toList, "00004".toList, "00005".toList, "00006".toList, "00007".toList, "00008".toList] [] "o".toList [] none 3 3 none
    = [(["00003".toList, "00004".toList, "00005".toList], "o00001".toList), (["00006".toList, "00007".toList, "00008".toList], "o00002".toList)] := by
  decide +kernel

/-- The bound is the best possible: from file 2 ^ 53 + 1 on, with one file per group, the first output number is wrong. -/
theorem C133_bound_is_sharp : firstOutput (roundBits 53) (2 ^ 53 + 1) 1 = 2 ^ 53 ∧ ⌈((2 ^ 53 + 1 : ℤ) : ℚ) / (1 : ℕ)⌉ = 2 ^ 53 + 1 := by decide +kernel

end Strata.FloatFiles
