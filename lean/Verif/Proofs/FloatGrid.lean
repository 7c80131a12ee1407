import Verif.Model.FloatGrid
import Verif.Props.FloatAverage
import Verif.Props.Recenter
/-!
# Lemmas about grid arithmetic in floating point
-/
namespace Strata.FloatGrid
open Strata Strata.Flow Strata.Average Strata.SimpleAverage Strata.Driver Strata.FloatAverage Strata.Simple

/-! ## Rounded arithmetic -/

theorem pyRound_of_near {x : ℚ} {k : ℤ} (h : |x - k| < 1 / 2) : pyRound x = k := by
  have h1 := abs_le.mp (Bytes.pyRound_near' x)
  have h2 := abs_lt.mp h
  have h3 : ((pyRound x : ℤ) : ℚ) < ((k + 1 : ℤ) : ℚ) := by push_cast; linarith
  have h4 : ((k - 1 : ℤ) : ℚ) < ((pyRound x : ℤ) : ℚ) := by push_cast; linarith
  have h5 : pyRound x < k + 1 := by exact_mod_cast h3
  have h6 : k - 1 < pyRound x := by exact_mod_cast h4
  omega

/-- A rounded quotient of a rounded number. -/
theorem quotient_near {u : ℚ} (hu : 0 ≤ u) (hu1 : u ≤ 1) {fl : ℚ → ℚ} (hfl : Rounds u fl) (a d : ℚ) : |fl (fl a / d) - a / d| ≤ 3 * u * |a / d| := by
  by_cases hd : d = 0
  · subst hd; simp [hfl.zero]
  have h1 : |fl a / d - a / d| ≤ u * |a / d| := by
    rw [← sub_div, abs_div, abs_div]
    have := hfl a
    rw [mul_div_assoc']
    exact div_le_div_of_nonneg_right this (abs_nonneg d)
  have h2 := hfl (fl a / d)
  have h3 : |fl a / d| ≤ (1 + u) * |a / d| := by
    have : fl a / d = (fl a / d - a / d) + a / d := by ring
    rw [this]
    refine (abs_add_le _ _).trans ?_
    linarith
  have h4 : |fl (fl a / d) - a / d| ≤ |fl (fl a / d) - fl a / d| + |fl a / d - a / d| := by
    have : fl (fl a / d) - a / d = (fl (fl a / d) - fl a / d) + (fl a / d - a / d) := by ring
    rw [this]; exact abs_add_le _ _
  have h5 : u * |fl a / d| ≤ u * ((1 + u) * |a / d|) := mul_le_mul_of_nonneg_left h3 hu
  have h6 : u * u * |a / d| ≤ u * |a / d| := by
    have := abs_nonneg (a / d)
    have : u * u ≤ u := by nlinarith
    exact mul_le_mul_of_nonneg_right this (abs_nonneg _)
  nlinarith

/-- The position of a column is near the exact one. -/
theorem place_near {u : ℚ} (hu : 0 ≤ u) (hu1 : u ≤ 1) {fl : ℚ → ℚ} (hfl : Rounds u fl) (o h : ℚ) (hh : 0 < h) (k : ℤ) :
    |place fl o h k - ((k : ℚ) * h + o)| ≤ 3 * u * (|(k : ℚ)| * h + |o|) := by
  unfold place
  have h1 := hfl ((k : ℚ) * h)
  have h2 := hfl (fl ((k : ℚ) * h) + o)
  have h3 : |(k : ℚ) * h| = |(k : ℚ)| * h := by rw [abs_mul, abs_of_pos hh]
  have h4 := hfl.le ((k : ℚ) * h)
  rw [h3] at h1 h4
  have h5 : |fl ((k : ℚ) * h) + o| ≤ (1 + u) * (|(k : ℚ)| * h) + |o| := (abs_add_le _ _).trans (by linarith)
  have h6 : fl (fl ((k : ℚ) * h) + o) - ((k : ℚ) * h + o) = (fl (fl ((k : ℚ) * h) + o) - (fl ((k : ℚ) * h) + o)) + (fl ((k : ℚ) * h) - (k : ℚ) * h) := by ring
  rw [h6]
  refine (abs_add_le _ _).trans ?_
  have h7 : u * |fl ((k : ℚ) * h) + o| ≤ u * ((1 + u) * (|(k : ℚ)| * h) + |o|) := mul_le_mul_of_nonneg_left h5 hu
  have h8 : 0 ≤ |(k : ℚ)| * h := by positivity
  have h9 : u * u * (|(k : ℚ)| * h) ≤ u * (|(k : ℚ)| * h) := mul_le_mul_of_nonneg_right (by nlinarith) h8
  have h10 : 0 ≤ u * |o| := by positivity
  nlinarith

/-- Rounding errors are small for columns up to `K` from the origin `o`: for double precision, `K + |o| / h` below 2 ^ 46. -/
def Fine (u : ℚ) (o h K : ℚ) : Prop := 0 ≤ u ∧ u ≤ 1 ∧ 0 < h ∧ 0 ≤ K ∧ 32 * u * (K * h + |o| + h) ≤ h

theorem Fine.place_near {u : ℚ} {fl : ℚ → ℚ} (hfl : Rounds u fl) {o h K : ℚ} (hf : Fine u o h K) {k : ℤ} (hk : |(k : ℚ)| ≤ K) :
    |place fl o h k - ((k : ℚ) * h + o)| ≤ 3 * u * (K * h + |o|) := by
  obtain ⟨hu, hu1, hh, -, -⟩ := hf
  refine (FloatGrid.place_near hu hu1 hfl o h hh k).trans ?_
  have : |(k : ℚ)| * h ≤ K * h := mul_le_mul_of_nonneg_right hk hh.le
  exact mul_le_mul_of_nonneg_left (by linarith) (by positivity)

theorem Fine.small {u o h K : ℚ} (hf : Fine u o h K) : 3 * u * (K * h + |o|) ≤ 3 / 32 * h := by
  obtain ⟨hu, hu1, hh, -, h5⟩ := hf
  have : 0 ≤ u * h := by positivity
  nlinarith

/-- Columns stay in order. -/
theorem Fine.place_lt {u : ℚ} {fl : ℚ → ℚ} (hfl : Rounds u fl) {o h K : ℚ} (hf : Fine u o h K) {j k : ℤ} (hj : |(j : ℚ)| ≤ K) (hk : |(k : ℚ)| ≤ K) (hjk : j < k) :
    place fl o h j < place fl o h k := by
  have h1 := abs_le.mp (hf.place_near hfl hj)
  have h2 := abs_le.mp (hf.place_near hfl hk)
  have h3 := hf.small
  have hh := hf.2.2.1
  have h4 : (j : ℚ) + 1 ≤ k := by exact_mod_cast hjk
  have h5 : (j : ℚ) * h + h ≤ k * h := by nlinarith
  linarith

theorem Fine.place_le_iff {u : ℚ} {fl : ℚ → ℚ} (hfl : Rounds u fl) {o h K : ℚ} (hf : Fine u o h K) {j k : ℤ} (hj : |(j : ℚ)| ≤ K) (hk : |(k : ℚ)| ≤ K) :
    place fl o h j ≤ place fl o h k ↔ j ≤ k := by
  constructor
  · intro h
    by_contra hc
    exact absurd (hf.place_lt hfl hk hj (not_le.mp hc)) (not_lt.mpr h)
  · intro h
    rcases h.lt_or_eq with h | h
    · exact (hf.place_lt hfl hj hk h).le
    · rw [h]

/-- The computed quotient of the width of the common columns and the spacing. -/
theorem Fine.width_near {u : ℚ} {fl : ℚ → ℚ} (hfl : Rounds u fl) {o h K : ℚ} (hf : Fine u o h K) {a b : ℤ} (ha : |(a : ℚ)| ≤ K) (hb : |(b : ℚ)| ≤ K) :
    |fl (fl (place fl o h b - place fl o h a) / h) - ((b : ℚ) - a)| < 1 / 2 := by
  have h1 := abs_le.mp (hf.place_near hfl ha)
  have h2 := abs_le.mp (hf.place_near hfl hb)
  have h3 := hf.small
  obtain ⟨hu, hu1, hh, hK, h5⟩ := hf
  set D := place fl o h b - place fl o h a
  have e1 : |D / h - ((b : ℚ) - a)| ≤ 3 / 16 := by
    have : D / h - ((b : ℚ) - a) = (D - ((b : ℚ) - a) * h) / h := by field_simp
    rw [this, abs_div, abs_of_pos hh, div_le_iff₀ hh, abs_le]
    constructor <;> nlinarith
  have e2 := quotient_near hu hu1 hfl D h
  have e3 : |D / h| ≤ 2 * K + 3 / 16 := by
    have : D / h = (D / h - ((b : ℚ) - a)) + ((b : ℚ) - a) := by ring
    rw [this]
    refine (abs_add_le _ _).trans ?_
    have : |(b : ℚ) - a| ≤ |(b : ℚ)| + |(a : ℚ)| := abs_sub _ _
    linarith
  have e4 : 32 * u * (K + 1) ≤ 1 := by
    have h6 : 0 ≤ u * |o| := by positivity
    have : 32 * u * (K + 1) * h ≤ 1 * h := by nlinarith
    exact le_of_mul_le_mul_right this hh
  have e5 : 3 * u * |D / h| ≤ 3 * u * (2 * K + 3 / 16) := mul_le_mul_of_nonneg_left e3 (by positivity)
  have e6 : 3 * u * (2 * K + 3 / 16) ≤ 6 / 32 := by nlinarith
  have e7 : fl (fl D / h) - ((b : ℚ) - a) = (fl (fl D / h) - D / h) + (D / h - ((b : ℚ) - a)) := by ring
  rw [e7]
  refine lt_of_le_of_lt (abs_add_le _ _) ?_
  linarith

/-- The number of columns in the information is that of the common columns, or one less. -/
theorem Fine.columns_eq {u : ℚ} {fl : ℚ → ℚ} (hfl : Rounds u fl) {o h K : ℚ} (hf : Fine u o h K) {a b : ℤ} (ha : |(a : ℚ)| ≤ K) (hb : |(b : ℚ)| ≤ K) (hab : a ≤ b) :
    numColumns fl (place fl o h a) (place fl o h b) h =
      if (b : ℚ) - a ≤ fl (fl (place fl o h b - place fl o h a) / h) then (b - a).toNat + 1 else (b - a).toNat := by
  have hw := abs_lt.mp (hf.width_near hfl ha hb)
  unfold numColumns
  rcases hab.lt_or_eq with hlt | heq
  · set q := fl (fl (place fl o h b - place fl o h a) / h)
    have h1 : (a : ℚ) + 1 ≤ b := by exact_mod_cast hlt
    have hq : 0 ≤ q := by linarith
    unfold Flow.pyInt
    rw [if_pos hq]
    split_ifs with hc
    · have : ⌊q⌋ = b - a := by
        rw [Int.floor_eq_iff]
        push_cast
        exact ⟨hc, by linarith⟩
      rw [this]; omega
    · have : ⌊q⌋ = b - a - 1 := by
        rw [Int.floor_eq_iff]
        push_cast
        exact ⟨by linarith, by linarith⟩
      rw [this]; omega
  · subst heq
    rw [sub_self, hfl.zero, zero_div, hfl.zero, sub_self, sub_self, if_pos le_rfl]
    rfl

/-- The computed column of a position near a column. -/
theorem Fine.column_eq {u : ℚ} {fl : ℚ → ℚ} (hfl : Rounds u fl) {o h K : ℚ} (hf : Fine u o h K) {k : ℤ} (hk : |(k : ℚ)| ≤ K) {v : ℚ}
    (hv : |v - (o + h * k)| ≤ 3 / 8 * h) : column fl o h v = k := by
  unfold column
  refine pyRound_of_near ?_
  obtain ⟨hu, hu1, hh, hK, h5⟩ := hf
  have e1 : |(v - o) / h - k| ≤ 3 / 8 := by
    have : (v - o) / h - k = (v - (o + h * k)) / h := by field_simp; ring
    rw [this, abs_div, abs_of_pos hh, div_le_iff₀ hh]
    exact hv
  have e2 := quotient_near hu hu1 hfl (v - o) h
  have e3 : |(v - o) / h| ≤ K + 3 / 8 := by
    have : (v - o) / h = ((v - o) / h - k) + k := by ring
    rw [this]
    exact (abs_add_le _ _).trans (by linarith)
  have e4 : 32 * u * (K + 1) ≤ 1 := by
    have h6 : 0 ≤ u * |o| := by positivity
    have : 32 * u * (K + 1) * h ≤ 1 * h := by nlinarith
    exact le_of_mul_le_mul_right this hh
  have e5 : 3 * u * |(v - o) / h| ≤ 3 * u * (K + 3 / 8) := mul_le_mul_of_nonneg_left e3 (by positivity)
  have e6 : 3 * u * (K + 3 / 8) ≤ 3 / 32 := by nlinarith
  have e7 : fl (fl (v - o) / h) - (k : ℚ) = (fl (fl (v - o) / h) - (v - o) / h) + ((v - o) / h - k) := by ring
  rw [e7]
  refine lt_of_le_of_lt (abs_add_le _ _) ?_
  linarith

/-- Numbers with at most `p` binary digits are not changed. -/
theorem roundBits_of_digits {p : ℕ} (hp : 1 ≤ p) (m e : ℤ) (hm : |m| ≤ 2 ^ p) : roundBits p ((m : ℚ) * 2 ^ e) = (m : ℚ) * 2 ^ e := by
  set x : ℚ := (m : ℚ) * 2 ^ e with hx
  unfold roundBits
  by_cases h0 : x = 0
  · rw [if_pos h0, h0]
  rw [if_neg h0]
  have hpos : 0 < |x| := abs_pos.mpr h0
  obtain ⟨h1, h2⟩ := Bytes.log2Rat_spec |x| hpos
  set L := Bytes.log2Rat |x|
  have two : (2 : ℚ) ≠ 0 := by norm_num
  have key : ∃ k : ℤ, x / 2 ^ (L - p + 1) = (k : ℚ) := by
    by_cases hc : L - p + 1 ≤ e
    · obtain ⟨n, hn⟩ := Int.eq_ofNat_of_zero_le (sub_nonneg.mpr hc)
      refine ⟨m * 2 ^ n, ?_⟩
      rw [hx, mul_div_assoc, ← zpow_sub₀ two, hn]
      push_cast
      simp
    · have hle : e + p ≤ L := by omega
      have h3 : |x| ≤ 2 ^ L := by
        rw [hx, abs_mul, abs_of_pos (by positivity : (0 : ℚ) < 2 ^ e)]
        have hm' : |(m : ℚ)| ≤ 2 ^ p := by
          have : ((|m| : ℤ) : ℚ) ≤ ((2 ^ p : ℤ) : ℚ) := by exact_mod_cast hm
          push_cast at this
          exact this
        calc |(m : ℚ)| * 2 ^ e ≤ 2 ^ p * 2 ^ e := mul_le_mul_of_nonneg_right hm' (by positivity)
          _ = 2 ^ (e + p) := by rw [zpow_add₀ two, zpow_natCast]; ring
          _ ≤ 2 ^ L := zpow_le_zpow_right₀ (by norm_num) hle
      have h4 : |x| = 2 ^ L := le_antisymm h3 h1
      obtain ⟨n, hn⟩ : ∃ n : ℕ, p = n + 1 := ⟨p - 1, by omega⟩
      have h5 : (2 : ℚ) ^ L / 2 ^ (L - p + 1) = 2 ^ n := by
        rw [← zpow_sub₀ two, ← zpow_natCast]
        congr 1
        rw [hn]; push_cast; ring
      rcases abs_choice x with h | h
      · refine ⟨2 ^ n, ?_⟩
        rw [h] at h4
        rw [h4, h5]; push_cast; rfl
      · refine ⟨-2 ^ n, ?_⟩
        rw [h] at h4
        have : x = -2 ^ L := by linarith
        rw [this, neg_div, h5]; push_cast; rfl
  obtain ⟨k, hk⟩ := key
  rw [hk, pyRound_int, ← hk]
  field_simp

end Strata.FloatGrid
