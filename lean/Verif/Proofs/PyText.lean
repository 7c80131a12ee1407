import Verif.Spec.Gmx
import Verif.Proofs.Decimal
import Mathlib.Algebra.Order.Field.Basic
import Mathlib.Tactic.Linarith
import Mathlib.Tactic.FieldSimp
/-! # Lemmas about Python text: words, lines, numbers -/
namespace Strata.PyText
open Strata Strata.Files Strata.Spec

theorem wordsAux_word (w : Text) (hw : ∀ c ∈ w, isSpace c = false) : ∀ (cur rest : Text),
    wordsAux cur (w ++ rest) = wordsAux (w.reverse ++ cur) rest := by
  induction w with
  | nil => intro cur rest; rfl
  | cons c w ih =>
    intro cur rest
    rw [List.cons_append, wordsAux, hw c (by simp)]
    simp only [Bool.false_eq_true, if_false]
    rw [ih (fun d hd => hw d (by simp [hd]))]
    simp

theorem words_cons (w rest : Text) (hne : w ≠ []) (hw : ∀ c ∈ w, isSpace c = false) :
    words (w ++ ' ' :: rest) = w :: words rest := by
  unfold words
  rw [wordsAux_word w hw, List.append_nil, wordsAux]
  have : isSpace ' ' = true := by decide
  rw [this, if_pos rfl, if_neg (by simpa using hne), List.reverse_reverse]

theorem words_single (w : Text) (hne : w ≠ []) (hw : ∀ c ∈ w, isSpace c = false) : words w = [w] := by
  have := wordsAux_word w hw [] []
  rw [List.append_nil] at this
  unfold words
  rw [this, wordsAux, if_neg (by simpa using hne)]
  simp

theorem words_spaces (k : ℕ) (s : Text) : words (List.replicate k ' ' ++ s) = words s := by
  induction k with
  | zero => rfl
  | succ k ih =>
    rw [List.replicate_succ, List.cons_append, ← ih]
    rfl

theorem linesAux_line (w : Text) (hw : ∀ c ∈ w, isBreak c = false) : ∀ (cur rest : Text),
    linesAux cur (w ++ rest) = linesAux (w.reverse ++ cur) rest := by
  induction w with
  | nil => intro cur rest; rfl
  | cons c w ih =>
    intro cur rest
    have hc := hw c (by simp)
    have hr : ¬ (c = '\r' ∧ (w ++ rest).head? = some '\n') := by
      rintro ⟨rfl, -⟩
      exact absurd hc (by decide)
    rw [List.cons_append, linesAux, if_neg hr, hc]
    simp only [Bool.false_eq_true, if_false]
    rw [ih (fun d hd => hw d (by simp [hd]))]
    simp

theorem splitlines_lines : ∀ (ls : List Text), (∀ l ∈ ls, ∀ c ∈ l, isBreak c = false) →
    splitlines (ls.flatMap fun l => l ++ ['\n']) = ls := by
  intro ls
  induction ls with
  | nil => intro _; rfl
  | cons l ls ih =>
    intro h
    have ih := ih fun l' hl' => h l' (by simp [hl'])
    unfold splitlines at ih ⊢
    rw [List.flatMap_cons, List.append_assoc, linesAux_line l (h l (by simp)), List.append_nil, List.singleton_append,
      linesAux]
    have hn : ¬ (('\n' : Char) = '\r' ∧ (ls.flatMap fun l => l ++ ['\n']).head? = some '\n') := by
      rintro ⟨h, -⟩; exact absurd h (by decide)
    have : isBreak '\n' = true := by decide
    rw [if_neg hn, this, if_pos rfl, List.reverse_reverse, ih]

/-! ## Digits -/

theorem digitValue_eq (c : Char) : digitValue c = if c.isDigit then some (c.toNat - 48) else none := by
  by_cases h : c.isDigit
  · rw [if_pos h]
    have h2 : 48 ≤ c.toNat ∧ c.toNat ≤ 57 := by
      simp only [Char.isDigit, Bool.and_eq_true, decide_eq_true_eq] at h
      exact ⟨UInt32.le_iff_toNat_le.mp h.1, UInt32.le_iff_toNat_le.mp h.2⟩
    obtain ⟨h3, h4⟩ := h2
    have hc : c = Char.ofNat c.toNat := (Char.ofNat_toNat c).symm
    generalize c.toNat = n at *
    subst hc
    interval_cases n <;> rfl
  · rw [if_neg h]
    unfold digitValue
    split <;> first | rfl | exact absurd (by decide) h

theorem digits?_eq (s : Text) : ∀ a, digits? a s = readDigits a s := by
  induction s with
  | nil => intro a; rfl
  | cons c cs ih =>
    intro a
    rw [digits?, readDigits, digitValue_eq]
    by_cases h : c.isDigit <;> simp [h, ih]

theorem readDigits_shift (s : Text) : ∀ a n, readDigits 0 s = some n → readDigits a s = some (a * 10 ^ s.length + n) := by
  have gen : ∀ (s : Text) (a b n : ℕ), readDigits b s = some n → readDigits (a + b) s = some (a * 10 ^ s.length + n) := by
    intro s
    induction s with
    | nil => intro a b n h; simp only [readDigits, Option.some.injEq] at h ⊢; simp [h]
    | cons c cs ih =>
      intro a b n h
      rw [readDigits] at h ⊢
      cases hd : digitValue c with
      | none => rw [hd] at h; simp at h
      | some d =>
        rw [hd] at h
        simp only at h ⊢
        have := ih (10 * a) (10 * b + d) n h
        rw [show 10 * (a + b) + d = 10 * a + (10 * b + d) by ring, this, List.length_cons, pow_succ]
        congr 1
        ring
  intro a n h
  exact gen s a 0 n h

theorem digit_of_readDigits (s : Text) : ∀ a n, readDigits a s = some n → ∀ c ∈ s, c.isDigit := by
  induction s with
  | nil => intro a n _ c hc; simp at hc
  | cons d s ih =>
    intro a n h c hc
    rw [readDigits] at h
    cases hd : digitValue d with
    | none => rw [hd] at h; simp at h
    | some v =>
      rw [hd] at h
      rcases List.mem_cons.mp hc with rfl | hc
      · rw [digitValue_eq] at hd
        by_contra hn
        simp [hn] at hd
      · exact ih _ _ h c hc

theorem digit_decimal (n : ℕ) : ∀ c ∈ decimal n, c.isDigit := digit_of_readDigits _ _ _ (readDigits_decimal n)

theorem digit_padded (w n : ℕ) : ∀ c ∈ padded w n, c.isDigit := by
  intro c hc
  unfold padded at hc
  rcases List.mem_append.mp hc with h | h
  · rw [List.mem_replicate] at h
    rw [h.2]; decide
  · exact digit_decimal n c h

theorem digit_range {c : Char} (h : c.isDigit) : 48 ≤ c.toNat ∧ c.toNat ≤ 57 := by
  simp only [Char.isDigit, Bool.and_eq_true, decide_eq_true_eq] at h
  exact ⟨UInt32.le_iff_toNat_le.mp h.1, UInt32.le_iff_toNat_le.mp h.2⟩

theorem signOf_digit {s : Text} (h : ∀ c ∈ s.head?, c.isDigit) : signOf s = (1, s) := by
  cases s with
  | nil => rfl
  | cons c s =>
    have hc := h c rfl
    unfold signOf
    split
    · rename_i heq
      simp only [List.cons.injEq] at heq
      rw [heq.1] at hc
      exact absurd hc (by decide)
    · rename_i heq
      simp only [List.cons.injEq] at heq
      rw [heq.1] at hc
      exact absurd hc (by decide)
    · rfl

theorem head_decimal_digit (n : ℕ) (t : Text) : ∀ c ∈ (decimal n ++ t).head?, c.isDigit := by
  have := decimal_ne_nil n
  cases h : decimal n with
  | nil => exact absurd h this
  | cons d ds =>
    intro c hc
    simp only [List.cons_append, List.head?_cons, Option.mem_def, Option.some.injEq] at hc
    subst hc
    exact digit_decimal n d (by rw [h]; simp)

/-- `int(str(n)) = n`. -/
theorem pyInt_decimal (n : ℕ) : PyText.pyInt (decimal n) = .ok (n : ℤ) := by
  have hh := head_decimal_digit n []
  rw [List.append_nil] at hh
  unfold PyText.pyInt
  rw [signOf_digit hh]
  simp only [decimal_ne_nil, if_false, digits?_eq, readDigits_decimal, one_mul]

theorem pyRound_near (x : ℚ) : |(Average.pyRound x : ℚ) - x| ≤ 1 / 2 := by
  have h1 := Int.floor_le x
  have h2 := Int.lt_floor_add_one x
  unfold Average.pyRound
  simp only
  split
  · rw [abs_le]; constructor <;> linarith
  · split
    · push_cast; rw [abs_le]; constructor <;> linarith
    · have : x - ⌊x⌋ = 1 / 2 := le_antisymm (by linarith) (by linarith)
      split
      · rw [abs_le]; constructor <;> linarith
      · push_cast; rw [abs_le]; constructor <;> linarith

theorem pyRound_nonneg {x : ℚ} (h : 0 ≤ x) : 0 ≤ Average.pyRound x := by
  have := Int.floor_nonneg.mpr h
  unfold Average.pyRound
  simp only
  split
  · exact this
  · split
    · omega
    · split <;> omega

theorem round6_near (x : ℚ) : |round6 x - x| ≤ 1 / 2 / 10 ^ 6 := by
  have h := pyRound_near (|x| * 10 ^ 6)
  rw [abs_le] at h
  have e : ((Average.pyRound (|x| * 10 ^ 6) : ℚ) / 10 ^ 6) - |x| = ((Average.pyRound (|x| * 10 ^ 6) : ℚ) - |x| * 10 ^ 6) / 10 ^ 6 := by
    field_simp
  have h3 : abs (((Average.pyRound (|x| * 10 ^ 6) : ℚ) / 10 ^ 6) - |x|) ≤ 1 / 2 / 10 ^ 6 := by
    rw [e, abs_div, abs_of_pos (show (0 : ℚ) < 10 ^ 6 by norm_num), div_le_div_iff_of_pos_right (by norm_num)]
    exact abs_le.mpr h
  unfold round6
  split
  · rename_i hn
    rw [abs_of_neg hn] at h3 ⊢
    rw [abs_le] at h3 ⊢
    constructor <;> linarith [h3.1, h3.2]
  · rename_i hn
    rw [abs_of_nonneg (not_lt.mp hn)] at h3 ⊢
    rw [one_mul]
    exact h3

theorem round6_exact (k : ℤ) : round6 ((k : ℚ) / 10 ^ 6) = (k : ℚ) / 10 ^ 6 := by
  have hp : ∀ m : ℤ, Average.pyRound (m : ℚ) = m := by
    intro m
    unfold Average.pyRound
    simp
  unfold round6
  have hk : |(k : ℚ) / 10 ^ 6| * 10 ^ 6 = ((|k| : ℤ) : ℚ) := by
    rw [abs_div, abs_of_pos (show (0 : ℚ) < 10 ^ 6 by norm_num), div_mul_cancel₀ _ (by norm_num), Int.cast_abs]
  rw [hk, hp]
  by_cases h : k < 0
  · rw [if_pos (by have : (k : ℚ) < 0 := by exact_mod_cast h
                   exact div_neg_of_neg_of_pos this (by norm_num)), abs_of_neg h]
    push_cast
    ring
  · rw [if_neg (by have : (0 : ℚ) ≤ k := by exact_mod_cast not_lt.mp h
                   exact not_lt.mpr (div_nonneg this (by norm_num))), abs_of_nonneg (not_lt.mp h)]
    ring

theorem digits_fixed (v : ℕ) : digits? 0 (decimal (v / 10 ^ 6) ++ padded 6 (v % 10 ^ 6)) = some v := by
  have hlen : (padded 6 (v % 10 ^ 6)).length = 6 := by
    rw [length_padded]
    have : (decimal (v % 10 ^ 6)).length ≤ 6 := by
      unfold decimal
      split
      · simp
      · rw [List.length_map, List.length_reverse, Nat.digits_length_le_iff (by norm_num)]
        exact Nat.mod_lt _ (by norm_num)
    omega
  rw [digits?_eq, readDigits_append, readDigits_decimal, Option.bind_some,
    readDigits_shift _ _ (v % 10 ^ 6), hlen]
  · congr 1
    exact Nat.div_add_mod' v (10 ^ 6)
  · have := readNumeral_padded 6 (v % 10 ^ 6)
    unfold readNumeral at this
    split at this
    · simp at this
    · exact this

theorem fixed_dot (a b : Text) (ha : ∀ c ∈ a, c.isDigit) : (a ++ '.' :: b).takeWhile (· ≠ '.') = a ∧
    ((a ++ '.' :: b).dropWhile (· ≠ '.')).drop 1 = b := by
  have hd : ∀ c ∈ a, (decide (c ≠ '.')) = true := by
    intro c hc
    have := digit_range (ha c hc)
    rw [decide_eq_true_eq]
    rintro rfl
    have : ('.' : Char).toNat = 46 := rfl
    omega
  constructor
  · rw [List.takeWhile_append_of_pos hd]
    simp
  · rw [List.dropWhile_append_of_pos hd]
    simp

/-- `float('{:f}'.format(x))` is `x` rounded to six decimals. -/
theorem pyFloat_fixed6 (x : ℚ) : pyFloat (fixed6 x) = .ok (round6 x) := by
  have hv : ((Average.pyRound (|x| * 10 ^ 6)).toNat : ℤ) = Average.pyRound (|x| * 10 ^ 6) :=
    Int.toNat_of_nonneg (pyRound_nonneg (by positivity))
  have hsg : signOf (fixed6 x) = ((if x < 0 then -1 else 1), decimal ((Average.pyRound (|x| * 10 ^ 6)).toNat / 10 ^ 6) ++
      '.' :: padded 6 ((Average.pyRound (|x| * 10 ^ 6)).toNat % 10 ^ 6)) := by
    unfold fixed6
    simp only
    split
    · rfl
    · exact signOf_digit (head_decimal_digit _ _)
  obtain ⟨h1, h2⟩ := fixed_dot (decimal ((Average.pyRound (|x| * 10 ^ 6)).toNat / 10 ^ 6))
    (padded 6 ((Average.pyRound (|x| * 10 ^ 6)).toNat % 10 ^ 6)) (digit_decimal _)
  have hlen : (padded 6 ((Average.pyRound (|x| * 10 ^ 6)).toNat % 10 ^ 6)).length = 6 := by
    rw [length_padded]
    have : (decimal ((Average.pyRound (|x| * 10 ^ 6)).toNat % 10 ^ 6)).length ≤ 6 := by
      unfold decimal
      split
      · simp
      · rw [List.length_map, List.length_reverse, Nat.digits_length_le_iff (by norm_num)]
        exact Nat.mod_lt _ (by norm_num)
    omega
  unfold pyFloat
  rw [hsg]
  simp only [h1, h2]
  rw [if_neg (by simp [decimal_ne_nil]), digits_fixed, hlen]
  simp only
  congr 1
  unfold round6
  have : (((Average.pyRound (|x| * 10 ^ 6)).toNat : ℕ) : ℚ) = (Average.pyRound (|x| * 10 ^ 6) : ℚ) := by exact_mod_cast hv
  rw [this]
  split <;> simp

theorem fixed6_ne_nil (x : ℚ) : fixed6 x ≠ [] := by simp [fixed6]

theorem fixed6_chars (x : ℚ) : ∀ c ∈ fixed6 x, 45 ≤ c.toNat ∧ c.toNat ≤ 57 := by
  intro c hc
  unfold fixed6 at hc
  simp only [List.mem_append, List.mem_cons] at hc
  rcases hc with (h | h) | rfl | h
  · split at h
    · simp only [List.mem_singleton] at h; subst h; decide
    · simp at h
  · have := digit_range (digit_decimal _ c h); omega
  · decide
  · have := digit_range (digit_padded _ _ c h); omega

/-- Printable ASCII. -/
def Printable (c : Char) : Prop := 32 ≤ c.toNat ∧ c.toNat < 127

theorem Printable.noBreak {c : Char} (h : Printable c) : isBreak c = false := by
  unfold Printable at h
  simp only [isBreak, Bool.or_eq_false_iff, Bool.and_eq_false_iff, decide_eq_false_iff_not]
  omega

theorem notSpace_of {c : Char} (h : 33 ≤ c.toNat) : isSpace c = false := by
  simp only [isSpace, Bool.or_eq_false_iff, Bool.and_eq_false_iff, decide_eq_false_iff_not]
  omega

theorem fmt12f_chars (x : ℚ) : ∀ c ∈ fmt12f x, Printable c := by
  intro c hc
  unfold fmt12f at hc
  rcases List.mem_append.mp hc with h | h
  · rw [List.mem_replicate] at h
    rw [h.2]; unfold Printable; decide
  · have := fixed6_chars x c h
    unfold Printable; omega

theorem decimal_chars (n : ℕ) : ∀ c ∈ decimal n, Printable c := by
  intro c hc
  have := digit_range (digit_decimal n c hc)
  unfold Printable; omega

theorem words_fmt12f_cons (x : ℚ) (rest : Text) : words (fmt12f x ++ ' ' :: rest) = fixed6 x :: words rest := by
  unfold fmt12f
  rw [List.append_assoc, words_spaces, words_cons _ _ (fixed6_ne_nil x)]
  exact fun c hc => notSpace_of (by have := fixed6_chars x c hc; omega)

theorem words_fmt12f (x : ℚ) : words (fmt12f x) = [fixed6 x] := by
  unfold fmt12f
  rw [words_spaces, words_single _ (fixed6_ne_nil x)]
  exact fun c hc => notSpace_of (by have := fixed6_chars x c hc; omega)

theorem words_decimal_cons (n : ℕ) (rest : Text) : words (decimal n ++ ' ' :: rest) = decimal n :: words rest := by
  rw [words_cons _ _ (decimal_ne_nil n)]
  exact fun c hc => notSpace_of (by have := digit_range (digit_decimal n c hc); omega)

theorem words_decimal (n : ℕ) : words (decimal n) = [decimal n] := by
  rw [words_single _ (decimal_ne_nil n)]
  exact fun c hc => notSpace_of (by have := digit_range (digit_decimal n c hc); omega)

end Strata.PyText
