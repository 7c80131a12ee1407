import Verif.Proofs.PyText
import Verif.Proofs.Gmx
import Verif.Proofs.Average
import Verif.Model.Bytes
import Mathlib.Data.Nat.Log
import Mathlib.Tactic.Positivity
/-! # Lemmas about IEEE single precision -/
namespace Strata.Bytes
open Strata Strata.PyText

theorem log2Rat_spec (q : ℚ) (hq : 0 < q) : (2 : ℚ) ^ log2Rat q ≤ q ∧ q < 2 ^ (log2Rat q + 1) := by
  have hn : 0 < q.num := Rat.num_pos.mpr hq
  have hd : 0 < q.den := q.den_pos
  obtain ⟨n, hn'⟩ : ∃ n : ℕ, q.num = n := ⟨q.num.toNat, (Int.toNat_of_nonneg hn.le).symm⟩
  have hn0 : n ≠ 0 := by rintro rfl; rw [hn'] at hn; simp at hn
  have hqe : q = (n : ℚ) / (q.den : ℚ) := by
    conv_lhs => rw [← Rat.num_div_den q]
    rw [hn']; push_cast; rfl
  have a1 : (2 : ℚ) ^ (Nat.log2 n) ≤ (n : ℚ) := by exact_mod_cast Nat.log2_self_le hn0
  have a2 : (n : ℚ) < (2 : ℚ) ^ (Nat.log2 n + 1) := by exact_mod_cast Nat.lt_log2_self
  have b1 : (2 : ℚ) ^ (Nat.log2 q.den) ≤ (q.den : ℚ) := by exact_mod_cast Nat.log2_self_le hd.ne'
  have b2 : (q.den : ℚ) < (2 : ℚ) ^ (Nat.log2 q.den + 1) := by exact_mod_cast Nat.lt_log2_self
  have hdq : (0 : ℚ) < (q.den : ℚ) := by exact_mod_cast hd
  have up : q < (2 : ℚ) ^ ((Nat.log2 n : ℤ) - (Nat.log2 q.den : ℤ) + 1) := by
    rw [show (Nat.log2 n : ℤ) - (Nat.log2 q.den : ℤ) + 1 = ((Nat.log2 n + 1 : ℕ) : ℤ) - ((Nat.log2 q.den : ℕ) : ℤ) by push_cast; ring,
      zpow_sub₀ (by norm_num), zpow_natCast, zpow_natCast]
    conv_lhs => rw [hqe]
    exact div_lt_div₀ a2 b1 (by positivity) (by positivity)
  have lo : (2 : ℚ) ^ ((Nat.log2 n : ℤ) - (Nat.log2 q.den : ℤ) - 1) ≤ q := by
    rw [show (Nat.log2 n : ℤ) - (Nat.log2 q.den : ℤ) - 1 = ((Nat.log2 n : ℕ) : ℤ) - ((Nat.log2 q.den + 1 : ℕ) : ℤ) by push_cast; ring,
      zpow_sub₀ (by norm_num), zpow_natCast, zpow_natCast]
    conv_rhs => rw [hqe]
    exact div_le_div₀ (by positivity) a1 hdq b2.le
  unfold log2Rat
  simp only [hn', Int.toNat_natCast]
  split
  · rename_i h
    exact ⟨h, up⟩
  · rename_i h
    refine ⟨lo, ?_⟩
    rw [sub_add_cancel]
    exact not_le.mp h

/-- The exponent used to store `x`. -/
def expOf (x : ℚ) : ℤ := max (-126) (log2Rat |x|)

/-- The significand used to store `x`. -/
def sigOf (x : ℚ) : ℤ := Average.pyRound (|x| / 2 ^ (expOf x - 23))

theorem pyRound_le {x : ℚ} {k : ℤ} (h : x ≤ k) : Average.pyRound x ≤ k := by
  have h1 := Int.floor_le x
  have hf : ⌊x⌋ ≤ k := by
    have : ((⌊x⌋ : ℤ) : ℚ) ≤ k := le_trans h1 h
    exact_mod_cast this
  unfold Average.pyRound
  simp only
  split
  · exact hf
  all_goals
    rcases eq_or_lt_of_le hf with e | hlt
    · have hx : x = k := le_antisymm h (by rw [← e]; exact h1)
      rename_i hne
      exfalso
      simp only [hx, Int.floor_intCast, sub_self] at *
      norm_num at *
    · split_ifs <;> omega

theorem le_pyRound {x : ℚ} {k : ℤ} (h : (k : ℚ) ≤ x) : k ≤ Average.pyRound x := by
  have hf : k ≤ ⌊x⌋ := Int.le_floor.mpr h
  unfold Average.pyRound
  simp only
  split_ifs <;> omega

/-- The largest number of single precision. -/
def maxSingle : ℚ := (2 ^ 24 - 1) * 2 ^ 104

theorem decode_bits (k m s : ℕ) (hk : k ≤ 253) (hm : m ≤ 2 ^ 24) (hlow : m < 2 ^ 23 → k = 0) (hhigh : k = 253 → m < 2 ^ 24) (hs : s = 0 ∨ s = 1) :
    ieee32.dec ((List.range 4).map fun i => UInt8.ofNat ((k * 2 ^ 23 + m + s * 2 ^ 31) / 256 ^ i % 256)) =
      (if s = 1 then -1 else 1) * ((m : ℚ) * 2 ^ ((k : ℤ) - 149)) := by
  show (if ofBytes _ / 2 ^ 31 = 1 then (-1 : ℚ) else 1) * _ = _
  rw [Gmx.ofBytes_bytes]
  have hB : k * 2 ^ 23 + m < 255 * 2 ^ 23 := by
    rcases Nat.lt_or_ge k 253 with h | h
    · omega
    · have := hhigh (by omega); omega
  have hn : (k * 2 ^ 23 + m + s * 2 ^ 31) % 256 ^ 4 = k * 2 ^ 23 + m + s * 2 ^ 31 := by
    apply Nat.mod_eq_of_lt
    norm_num at hB ⊢
    rcases hs with h | h <;> rw [h] <;> linarith
  simp only [hn]
  have h1 : (k * 2 ^ 23 + m + s * 2 ^ 31) / 2 ^ 31 = s := by omega
  have h2 : (k * 2 ^ 23 + m + s * 2 ^ 31) / 2 ^ 23 % 256 = (k * 2 ^ 23 + m) / 2 ^ 23 := by omega
  have h3 : (k * 2 ^ 23 + m + s * 2 ^ 31) % 2 ^ 23 = m % 2 ^ 23 := by omega
  rw [h1, h2, h3]
  clear h1 h2 h3 hn hB hs
  congr 1
  rcases Nat.lt_or_ge m (2 ^ 23) with h | h
  · have hk0 := hlow h
    subst hk0
    rw [if_pos (by omega), Nat.mod_eq_of_lt h]
    norm_num
  · rcases Nat.lt_or_ge m (2 ^ 24) with h' | h'
    · have e1 : (k * 2 ^ 23 + m) / 2 ^ 23 = k + 1 := by omega
      have e2 : m % 2 ^ 23 = m - 2 ^ 23 := by omega
      rw [e1, e2, if_neg (by omega), Nat.cast_sub h]
      push_cast
      rw [show (k : ℤ) + 1 - 150 = (k : ℤ) - 149 by ring]
      ring
    · have e0 : m = 2 ^ 24 := by omega
      have e1 : (k * 2 ^ 23 + m) / 2 ^ 23 = k + 2 := by omega
      have e2 : m % 2 ^ 23 = 0 := by omega
      rw [e1, e2, if_neg (by omega), e0]
      push_cast
      rw [show (k : ℤ) + 2 - 150 = ((k : ℤ) - 149) + 1 by ring, zpow_add₀ (by norm_num)]
      norm_num
      ring

theorem log2Rat_le {q : ℚ} (hq : 0 < q) {k : ℤ} (h : q < 2 ^ (k + 1)) : log2Rat q ≤ k := by
  have := (log2Rat_spec q hq).1
  by_contra hc
  have hlt : k + 1 ≤ log2Rat q := by omega
  have := zpow_le_zpow_right₀ (by norm_num : (1 : ℚ) ≤ 2) hlt
  linarith

theorem expOf_ge (x : ℚ) : -126 ≤ expOf x := le_max_left _ _

theorem maxSingle_lt : maxSingle < 2 ^ (127 + 1 : ℤ) := by unfold maxSingle; norm_num

theorem expOf_le {x : ℚ} (hx0 : x ≠ 0) (hx : |x| ≤ maxSingle) : expOf x ≤ 127 :=
  max_le (by norm_num) (log2Rat_le (abs_pos.mpr hx0) (lt_of_le_of_lt hx maxSingle_lt))

theorem two_zpow_pos (k : ℤ) : (0 : ℚ) < 2 ^ k := zpow_pos (by norm_num) _

theorem lt_expOf {x : ℚ} (hx0 : x ≠ 0) : |x| < 2 ^ (expOf x + 1) := by
  refine lt_of_lt_of_le (log2Rat_spec |x| (abs_pos.mpr hx0)).2 ?_
  apply zpow_le_zpow_right₀ (by norm_num)
  have : log2Rat |x| ≤ expOf x := le_max_right _ _
  omega

theorem sigOf_le {x : ℚ} (hx0 : x ≠ 0) : sigOf x ≤ 2 ^ 24 := by
  apply pyRound_le
  rw [div_le_iff₀ (two_zpow_pos _)]
  refine le_trans (lt_expOf hx0).le (le_of_eq ?_)
  rw [show (((2 ^ 24 : ℤ)) : ℚ) = 2 ^ (24 : ℤ) by norm_num, ← zpow_add₀ (by norm_num)]
  congr 1
  ring

theorem sigOf_nonneg (x : ℚ) : 0 ≤ sigOf x := by
  apply le_pyRound
  push_cast
  exact div_nonneg (abs_nonneg _) (two_zpow_pos _).le

theorem sigOf_normal {x : ℚ} (hx0 : x ≠ 0) (h : -126 < expOf x) : 2 ^ 23 ≤ sigOf x := by
  have he : expOf x = log2Rat |x| := by
    unfold expOf at h ⊢
    rcases le_total (-126) (log2Rat |x|) with h' | h'
    · exact max_eq_right h'
    · rw [max_eq_left h'] at h; omega
  apply le_pyRound
  rw [le_div_iff₀ (two_zpow_pos _)]
  refine le_trans (le_of_eq ?_) (log2Rat_spec |x| (abs_pos.mpr hx0)).1
  rw [show (((2 ^ 23 : ℤ)) : ℚ) = 2 ^ (23 : ℤ) by norm_num, ← zpow_add₀ (by norm_num), he]
  congr 1
  ring

/-- What a number within the range becomes when stored. -/
theorem ieee32_rnd {x : ℚ} (hx0 : x ≠ 0) (hx : |x| ≤ maxSingle) :
    ieee32.rnd x = (if x < 0 then -1 else 1) * ((sigOf x : ℚ) * 2 ^ (expOf x - 23)) := by
  have he1 := expOf_ge x
  have he2 := expOf_le hx0 hx
  have hs1 := sigOf_le hx0
  have hs0 := sigOf_nonneg x
  obtain ⟨k, hk⟩ : ∃ k : ℕ, expOf x + 126 = k := ⟨(expOf x + 126).toNat, by omega⟩
  obtain ⟨m, hm⟩ : ∃ m : ℕ, sigOf x = m := ⟨(sigOf x).toNat, by omega⟩
  have hlow : m < 2 ^ 23 → k = 0 := by
    intro h
    by_contra hc
    have := sigOf_normal hx0 (by omega)
    omega
  have hhigh : k = 253 → m < 2 ^ 24 := by
    intro h
    have he : expOf x = 127 := by omega
    have : sigOf x ≤ 2 ^ 24 - 1 := by
      apply pyRound_le
      rw [he, div_le_iff₀ (two_zpow_pos _)]
      refine le_trans hx (le_of_eq ?_)
      unfold maxSingle
      norm_num
    omega
  have hbits : ieeeBits x = k * 2 ^ 23 + m := by
    unfold ieeeBits
    rw [if_neg hx0]
    show min (255 * 2 ^ 23) ((expOf x + 126) * 2 ^ 23 + sigOf x).toNat = _
    rw [hk, hm]
    have : (((k : ℤ) * 2 ^ 23 + (m : ℤ)).toNat) = k * 2 ^ 23 + m := by omega
    rw [this]
    apply min_eq_right
    rcases Nat.lt_or_ge k 253 with h | h
    · omega
    · have := hhigh (by omega); omega
  have key := decode_bits k m (if x < 0 then 1 else 0) (by omega) (by omega) hlow hhigh (by split <;> simp)
  unfold F32.rnd
  have henc : ieee32.enc x = (List.range 4).map fun i => UInt8.ofNat ((k * 2 ^ 23 + m + (if x < 0 then 1 else 0) * 2 ^ 31) / 256 ^ i % 256) := by
    show (List.range 4).map (fun i => UInt8.ofNat ((ieeeBits x + if x < 0 then 2 ^ 31 else 0) / 256 ^ i % 256)) = _
    rw [hbits]
    have : (if x < 0 then 2 ^ 31 else 0 : ℕ) = (if x < 0 then 1 else 0) * 2 ^ 31 := by split <;> simp
    rw [this]
  rw [henc, key, hm, show expOf x - 23 = (k : ℤ) - 149 by omega]
  congr 1
  by_cases h : x < 0 <;> simp [h]

theorem ieee32_zero : ieee32.rnd 0 = 0 := by decide +kernel

theorem sgn_mul_abs (x : ℚ) : (if x < 0 then -1 else 1) * |x| = x := by
  by_cases h : x < 0
  · rw [if_pos h, abs_of_neg h]; ring
  · rw [if_neg h, abs_of_nonneg (not_lt.mp h)]; ring

theorem pyRound_near' (x : ℚ) : |(Average.pyRound x : ℚ) - x| ≤ 1 / 2 := by
  have h1 := Int.floor_le x
  have h2 := Int.lt_floor_add_one x
  unfold Average.pyRound
  simp only
  rw [abs_le]
  split_ifs <;> push_cast <;> constructor <;> linarith

/-- The error is at most half of the last place. -/
theorem ieee32_error {x : ℚ} (hx0 : x ≠ 0) (hx : |x| ≤ maxSingle) : |ieee32.rnd x - x| ≤ 2 ^ (expOf x - 24) := by
  rw [ieee32_rnd hx0 hx]
  have e : (if x < 0 then -1 else 1) * ((sigOf x : ℚ) * 2 ^ (expOf x - 23)) - x =
      (if x < 0 then -1 else 1) * (((sigOf x : ℚ) - |x| / 2 ^ (expOf x - 23)) * 2 ^ (expOf x - 23)) := by
    rw [sub_mul, div_mul_cancel₀ _ (two_zpow_pos _).ne', mul_sub, sgn_mul_abs]
  rw [e, abs_mul, abs_mul, abs_of_pos (two_zpow_pos _)]
  have : |(if x < 0 then -1 else 1 : ℚ)| = 1 := by split <;> simp
  rw [this, one_mul]
  have h := pyRound_near' (|x| / 2 ^ (expOf x - 23))
  calc _ ≤ 1 / 2 * (2 : ℚ) ^ (expOf x - 23) := mul_le_mul_of_nonneg_right h (two_zpow_pos _).le
    _ = 2 ^ (expOf x - 24) := by
      rw [show expOf x - 23 = (expOf x - 24) + 1 by ring, zpow_add₀ (by norm_num)]; ring

theorem ieee32_accurate {x : ℚ} (hx : |x| ≤ maxSingle) : |ieee32.rnd x - x| ≤ max (|x| / 2 ^ 24) (1 / 2 ^ 150) := by
  by_cases hx0 : x = 0
  · rw [hx0, ieee32_zero]; norm_num
  · refine le_trans (ieee32_error hx0 hx) ?_
    rcases le_total (log2Rat |x|) (-126) with h | h
    · have : expOf x = -126 := max_eq_left h
      rw [this]
      refine le_trans (le_of_eq ?_) (le_max_right _ _)
      norm_num
    · have : expOf x = log2Rat |x| := max_eq_right h
      rw [this]
      refine le_trans ?_ (le_max_left _ _)
      rw [zpow_sub₀ (by norm_num)]
      exact div_le_div_of_nonneg_right (log2Rat_spec |x| (abs_pos.mpr hx0)).1 (by positivity)

/-- Numbers with at most 24 significant bits are stored exactly. -/
theorem ieee32_exact (k p : ℤ) (hk : |k| ≤ 2 ^ 24) (hp : -149 ≤ p) (hx : |(k : ℚ) * 2 ^ p| ≤ maxSingle) : ieee32.rnd (k * 2 ^ p) = k * 2 ^ p := by
  by_cases hx0 : (k : ℚ) * 2 ^ p = 0
  · rw [hx0, ieee32_zero]
  · rw [ieee32_rnd hx0 hx]
    have hab : |(k : ℚ) * 2 ^ p| = (|k| : ℤ) * (2 : ℚ) ^ p := by rw [abs_mul, abs_of_pos (two_zpow_pos p)]; push_cast; rfl
    have hk0 : k ≠ 0 := by rintro rfl; simp at hx0
    -- the significand is an integer
    have hint : ∃ j : ℤ, |(k : ℚ) * 2 ^ p| / 2 ^ (expOf (k * 2 ^ p) - 23) = j := by
      by_cases hle : expOf ((k : ℚ) * 2 ^ p) - 23 ≤ p
      · obtain ⟨d, hd⟩ : ∃ d : ℕ, p - (expOf ((k : ℚ) * 2 ^ p) - 23) = d := ⟨(p - (expOf ((k : ℚ) * 2 ^ p) - 23)).toNat, by omega⟩
        refine ⟨|k| * 2 ^ d, ?_⟩
        rw [hab, mul_div_assoc, ← zpow_sub₀ (by norm_num), hd, zpow_natCast]
        push_cast
        rfl
      · -- then |k| = 2^24 and the exponent is one larger
        have h1 : expOf ((k : ℚ) * 2 ^ p) ≤ p + 24 := by
          refine max_le (by omega) (log2Rat_le (abs_pos.mpr hx0) ?_)
          rw [hab]
          have : ((|k| : ℤ) : ℚ) ≤ 2 ^ 24 := by exact_mod_cast hk
          calc ((|k| : ℤ) : ℚ) * (2 : ℚ) ^ p ≤ 2 ^ 24 * 2 ^ p := mul_le_mul_of_nonneg_right this (two_zpow_pos p).le
            _ < 2 ^ 25 * 2 ^ p := by have := two_zpow_pos p; nlinarith
            _ = 2 ^ (p + 24 + 1) := by
              rw [show p + 24 + 1 = 25 + p by ring, zpow_add₀ (by norm_num)]; norm_cast
        have h2 : expOf ((k : ℚ) * 2 ^ p) = p + 24 := by omega
        have h3 : log2Rat |(k : ℚ) * 2 ^ p| = p + 24 := by
          have := h2
          unfold expOf at this
          rcases le_total (-126) (log2Rat |(k : ℚ) * 2 ^ p|) with h' | h'
          · rwa [max_eq_right h'] at this
          · rw [max_eq_left h'] at this; omega
        have h4 := (log2Rat_spec _ (abs_pos.mpr hx0)).1
        rw [h3, hab, show p + 24 = 24 + p by ring, zpow_add₀ (by norm_num)] at h4
        have h5 : (2 : ℚ) ^ (24 : ℤ) ≤ ((|k| : ℤ) : ℚ) := le_of_mul_le_mul_right h4 (two_zpow_pos p)
        have h6 : (2 : ℤ) ^ 24 ≤ |k| := by
          have : ((2 ^ 24 : ℤ) : ℚ) ≤ ((|k| : ℤ) : ℚ) := by refine le_trans (le_of_eq ?_) h5; norm_num
          exact_mod_cast this
        have h7 : |k| = 2 ^ 24 := le_antisymm hk h6
        refine ⟨2 ^ 23, ?_⟩
        rw [hab, h2, h7, div_eq_iff (two_zpow_pos _).ne', show p + 24 - 23 = p + 1 by ring, zpow_add₀ (by norm_num)]
        push_cast
        ring
    obtain ⟨j, hj⟩ := hint
    unfold sigOf
    rw [hj, Average.pyRound_int, ← hj, div_mul_cancel₀ _ (two_zpow_pos _).ne', sgn_mul_abs]

/-- What is read back is stored exactly. -/
theorem ieee32_idem {x : ℚ} (hx : |x| ≤ maxSingle) : ieee32.rnd (ieee32.rnd x) = ieee32.rnd x := by
  by_cases hx0 : x = 0
  · rw [hx0, ieee32_zero, ieee32_zero]
  · have hb : |ieee32.rnd x| ≤ maxSingle := by
      rw [ieee32_rnd hx0 hx, abs_mul]
      have : |(if x < 0 then -1 else 1 : ℚ)| = 1 := by split <;> simp
      rw [this, one_mul, abs_mul, abs_of_pos (two_zpow_pos _), abs_of_nonneg (by exact_mod_cast sigOf_nonneg x)]
      have he2 := expOf_le hx0 hx
      rcases eq_or_lt_of_le he2 with he | he
      · have : sigOf x ≤ 2 ^ 24 - 1 := by
          apply pyRound_le
          rw [he, div_le_iff₀ (two_zpow_pos _)]
          refine le_trans hx (le_of_eq ?_)
          unfold maxSingle
          norm_num
        rw [he]
        have h' : (sigOf x : ℚ) ≤ 2 ^ 24 - 1 := by exact_mod_cast this
        calc _ ≤ ((2 : ℚ) ^ 24 - 1) * 2 ^ (127 - 23 : ℤ) := mul_le_mul_of_nonneg_right h' (two_zpow_pos _).le
          _ = maxSingle := by unfold maxSingle; norm_num
      · have h' : (sigOf x : ℚ) ≤ 2 ^ 24 := by exact_mod_cast sigOf_le hx0
        calc _ ≤ (2 : ℚ) ^ 24 * 2 ^ (expOf x - 23) := mul_le_mul_of_nonneg_right h' (two_zpow_pos _).le
          _ ≤ (2 : ℚ) ^ 24 * 2 ^ (103 : ℤ) := by
            refine mul_le_mul_of_nonneg_left (zpow_le_zpow_right₀ (by norm_num) (by omega)) (by norm_num)
          _ ≤ maxSingle := by unfold maxSingle; norm_num
    have hr := ieee32_rnd hx0 hx
    have e : ieee32.rnd x = (((if x < 0 then -1 else 1) * sigOf x : ℤ) : ℚ) * 2 ^ (expOf x - 23) := by
      rw [hr]
      by_cases h : x < 0 <;> simp [h]
    rw [e] at hb ⊢
    refine ieee32_exact _ _ ?_ (by have := expOf_ge x; omega) hb
    rw [abs_mul]
    have : |(if x < 0 then -1 else 1 : ℤ)| = 1 := by split <;> simp
    rw [this, one_mul, abs_of_nonneg (sigOf_nonneg x)]
    exact sigOf_le hx0

/-- `round` gives a nearest integer. -/
theorem pyRound_nearest (z : ℚ) (j : ℤ) : |(Average.pyRound z : ℚ) - z| ≤ |(j : ℚ) - z| := by
  have h1 := Int.floor_le z
  have h2 := Int.lt_floor_add_one z
  have hj : (j : ℚ) ≤ ⌊z⌋ ∨ (⌊z⌋ : ℚ) + 1 ≤ j := by
    rcases le_or_gt j ⌊z⌋ with h | h
    · left; exact_mod_cast h
    · right; exact_mod_cast h
  unfold Average.pyRound
  simp only
  split_ifs with a b c <;> push_cast <;> rw [abs_le] <;>
    rcases hj with hj | hj <;>
    first
      | (rw [abs_of_nonpos (by linarith : (j : ℚ) - z ≤ 0)]; constructor <;> linarith)
      | (rw [abs_of_nonneg (by linarith : 0 ≤ (j : ℚ) - z)]; constructor <;> linarith)

/-- No single precision number is closer to `x` than the one stored for it. -/
theorem ieee32_nearest {x : ℚ} (hx : |x| ≤ maxSingle) (k p : ℤ) (hk : |k| ≤ 2 ^ 24) (hp : -149 ≤ p) :
    |ieee32.rnd x - x| ≤ |(k : ℚ) * 2 ^ p - x| := by
  by_cases hx0 : x = 0
  · rw [hx0, ieee32_zero, sub_zero, abs_zero]; exact abs_nonneg _
  · have hu := two_zpow_pos (expOf x - 23)
    -- multiples of the last place
    have hmul : ∀ j : ℤ, |ieee32.rnd x - x| ≤ |(j : ℚ) * 2 ^ (expOf x - 23) - x| := by
      intro j
      rw [ieee32_rnd hx0 hx]
      set s : ℚ := if x < 0 then -1 else 1 with hs
      have hs1 : |s| = 1 := by rw [hs]; split <;> simp
      have hss : s * s = 1 := by rw [hs]; split <;> norm_num
      have hxs : x = s * |x| := (sgn_mul_abs x).symm
      obtain ⟨j', hj'⟩ : ∃ j' : ℤ, (j : ℚ) = s * j' := by
        by_cases h : x < 0
        · exact ⟨-j, by rw [hs, if_pos h]; push_cast; ring⟩
        · exact ⟨j, by rw [hs, if_neg h]; ring⟩
      have e1 : s * ((sigOf x : ℚ) * 2 ^ (expOf x - 23)) - x = s * (((sigOf x : ℚ) - |x| / 2 ^ (expOf x - 23)) * 2 ^ (expOf x - 23)) := by
        rw [sub_mul, div_mul_cancel₀ _ hu.ne', mul_sub, ← hxs]
      have e2 : (j : ℚ) * 2 ^ (expOf x - 23) - x = s * (((j' : ℚ) - |x| / 2 ^ (expOf x - 23)) * 2 ^ (expOf x - 23)) := by
        rw [sub_mul, div_mul_cancel₀ _ hu.ne', mul_sub, ← hxs, hj']; ring
      rw [e1, e2, abs_mul, abs_mul, abs_mul s, abs_mul, hs1, one_mul, one_mul]
      exact mul_le_mul_of_nonneg_right (pyRound_nearest _ _) (abs_nonneg _)
    by_cases hle : expOf x - 23 ≤ p
    · obtain ⟨d, hd⟩ : ∃ d : ℕ, p - (expOf x - 23) = d := ⟨(p - (expOf x - 23)).toNat, by omega⟩
      have := hmul (k * 2 ^ d)
      rw [show p = (expOf x - 23) + d by omega, zpow_add₀ (by norm_num), zpow_natCast]
      push_cast at this
      rw [show (k : ℚ) * (2 ^ (expOf x - 23) * 2 ^ d) = (k : ℚ) * 2 ^ d * 2 ^ (expOf x - 23) by ring]
      exact this
    · -- the other number is below the binade of `x`
      have he : expOf x = log2Rat |x| := by
        have := expOf_ge x
        unfold expOf at hle ⊢
        rcases le_total (-126) (log2Rat |x|) with h' | h'
        · exact max_eq_right h'
        · rw [max_eq_left h'] at hle; omega
      have hlo : (2 : ℚ) ^ expOf x ≤ |x| := by rw [he]; exact (log2Rat_spec |x| (abs_pos.mpr hx0)).1
      have hy : |(k : ℚ) * 2 ^ p| ≤ 2 ^ expOf x := by
        rw [abs_mul, abs_of_pos (two_zpow_pos p)]
        have h' : |(k : ℚ)| ≤ 2 ^ 24 := by exact_mod_cast hk
        calc |(k : ℚ)| * 2 ^ p ≤ 2 ^ 24 * 2 ^ p := mul_le_mul_of_nonneg_right h' (two_zpow_pos p).le
          _ = 2 ^ (24 + p) := by rw [zpow_add₀ (by norm_num)]; norm_cast
          _ ≤ 2 ^ expOf x := zpow_le_zpow_right₀ (by norm_num) (by omega)
      have hb : ∀ t : ℤ, ((t * 2 ^ 23 : ℤ) : ℚ) * 2 ^ (expOf x - 23) = t * 2 ^ expOf x := by
        intro t
        push_cast
        rw [mul_assoc]
        congr 1
        rw [show (8388608 : ℚ) = 2 ^ (23 : ℤ) by norm_num, ← zpow_add₀ (by norm_num)]
        congr 1
        ring
      have hya := abs_le.mp hy
      rcases le_total 0 x with h | h
      · have := hmul (1 * 2 ^ 23)
        rw [hb 1] at this
        refine le_trans this ?_
        rw [abs_of_nonneg h] at hlo
        push_cast
        rw [abs_of_nonpos (by linarith), abs_of_nonpos (by linarith)]
        linarith
      · have := hmul (-1 * 2 ^ 23)
        rw [hb (-1)] at this
        refine le_trans this ?_
        rw [abs_of_nonpos h] at hlo
        push_cast
        rw [abs_of_nonneg (by linarith), abs_of_nonneg (by linarith)]
        linarith

end Strata.Bytes
