import Verif.Model.Files
import Verif.Spec.Text
import Mathlib.Tactic.IntervalCases
import Mathlib.Data.Nat.Digits.Lemmas
/-! Helper lemmas on decimal printing. -/
namespace Strata.Files
open Strata.Spec

theorem digitValue_digitChar {d : ℕ} (h : d < 10) : digitValue (Nat.digitChar d) = some d := by
  interval_cases d <;> rfl

theorem readDigits_append (a : ℕ) (s t : Text) :
    readDigits a (s ++ t) = (readDigits a s).bind (fun b => readDigits b t) := by
  induction s generalizing a with
  | nil => rfl
  | cons c cs ih =>
    simp only [List.cons_append, readDigits]
    cases digitValue c <;> simp [ih]

theorem readDigits_digits (l : List ℕ) (h : ∀ d ∈ l, d < 10) (a : ℕ) :
    readDigits a (l.reverse.map Nat.digitChar) = some (a * 10 ^ l.length + Nat.ofDigits 10 l) := by
  induction l with
  | nil => simp [readDigits, Nat.ofDigits]
  | cons d l ih =>
    have hd : d < 10 := h d (by simp)
    rw [List.reverse_cons, List.map_append, readDigits_append, ih (fun x hx => h x (by simp [hx]))]
    simp only [List.map_cons, List.map_nil, Option.bind_some, readDigits,
      digitValue_digitChar hd, List.length_cons, Nat.ofDigits_cons]
    congr 1; ring

theorem decimal_ne_nil (n : ℕ) : decimal n ≠ [] := by
  unfold decimal
  split
  · simp
  · simp [Nat.digits_ne_nil_iff_ne_zero, *]

theorem readDigits_decimal (n : ℕ) : readDigits 0 (decimal n) = some n := by
  unfold decimal
  split
  · subst_vars; rfl
  · rw [readDigits_digits _ (fun d hd => Nat.digits_lt_base (by norm_num) hd)]
    simp [Nat.ofDigits_digits]

theorem readDigits_replicate_zero (k : ℕ) (s : Text) :
    readDigits 0 (List.replicate k '0' ++ s) = readDigits 0 s := by
  induction k with
  | zero => rfl
  | succ k ih => simpa [List.replicate_succ, readDigits, digitValue] using ih

theorem readNumeral_padded (w n : ℕ) : readNumeral (padded w n) = some n := by
  have h : padded w n ≠ [] := by simp [padded, decimal_ne_nil]
  rw [readNumeral, if_neg h, padded, readDigits_replicate_zero, readDigits_decimal]

theorem readNumeral_decimal (n : ℕ) : readNumeral (decimal n) = some n := by
  simp [readNumeral, decimal_ne_nil, readDigits_decimal]

theorem decimal_injective : Function.Injective decimal := by
  intro a b h
  have := readNumeral_decimal a
  rw [h, readNumeral_decimal] at this
  exact (Option.some.inj this).symm

theorem readDigits_some_no_minus (s : Text) (a b : ℕ) (h : readDigits a s = some b) : '-' ∉ s := by
  induction s generalizing a with
  | nil => simp
  | cons c cs ih =>
    simp only [readDigits] at h
    rcases hc : digitValue c with _ | d
    · simp [hc] at h
    · rw [hc] at h
      simp only [List.mem_cons, not_or]
      refine ⟨?_, ih _ h⟩
      rintro rfl
      simp [digitValue] at hc

theorem minus_notMem_padded (w n : ℕ) : '-' ∉ padded w n := by
  have h := readNumeral_padded w n
  unfold readNumeral at h
  split at h
  · simp at h
  · exact readDigits_some_no_minus _ _ _ h

theorem readInteger_fmt05 (n : ℤ) : readInteger (fmt05 n) = some n := by
  unfold fmt05
  split
  · rename_i h
    have hm := minus_notMem_padded 5 n.toNat
    have hr := readNumeral_padded 5 n.toNat
    rcases hp : padded 5 n.toNat with _ | ⟨c, cs⟩
    · rw [hp] at hr; simp [readNumeral] at hr
    · rw [hp] at hm hr
      have hc : c ≠ '-' := fun e => hm (by simp [e])
      have : readInteger (c :: cs) = (readNumeral (c :: cs)).map (fun n => (n : ℤ)) := by
        unfold readInteger
        split
        · rename_i heq; exact absurd (by injection heq) hc
        · rfl
      rw [this, hr]; simp [Int.toNat_of_nonneg h]
  · rename_i h
    simp only [readInteger, readNumeral_padded]
    simp; omega

theorem fmt05_injective : Function.Injective fmt05 := by
  intro a b h
  have := readInteger_fmt05 a
  rw [h, readInteger_fmt05] at this
  exact (Option.some.inj this).symm

theorem fileName_injective (base ext : Text) : Function.Injective (fileName base ext) := by
  intro a b h
  unfold fileName at h
  rw [List.append_assoc, List.append_assoc] at h
  exact fmt05_injective (List.append_cancel_right (List.append_cancel_left h))

theorem length_padded (w n : ℕ) : (padded w n).length = max w (decimal n).length := by
  simp [padded]; omega

theorem head_decimal_ne_zero (n : ℕ) (h : n ≠ 0) : (decimal n).head? ≠ some '0' := by
  have hd : ∀ d : ℕ, d < 10 → d ≠ 0 → Nat.digitChar d ≠ '0' := by
    intro d h1 h2; interval_cases d <;> simp_all [Nat.digitChar]
  unfold decimal
  rw [if_neg h, List.map_reverse, List.head?_reverse]
  have hn : Nat.digits 10 n ≠ [] := Nat.digits_ne_nil_iff_ne_zero.mpr h
  rw [List.getLast?_map, List.getLast?_eq_getLast_of_ne_nil hn]
  simp only [Option.map_some, ne_eq, Option.some.injEq]
  exact hd _ (Nat.digits_lt_base (by norm_num) (List.getLast_mem hn))
    (Nat.getLast_digit_ne_zero 10 h)

end Strata.Files
