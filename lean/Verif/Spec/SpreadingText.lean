import Verif.Model.SpreadingText
import Verif.Spec.Cli
/-!
# Specification vocabulary for spreading files
-/
namespace Strata.SpreadingText
open Strata Strata.Files Strata.PyText Strata.Spreading Strata.Cli

/-- `x` with `k` decimals, ties to the even last digit. -/
def rounded (k : ℕ) (x : ℚ) : ℚ := (if x < 0 then -1 else 1) * ((Average.pyRound (|x| * 10 ^ k) : ℚ) / 10 ^ k)

/-- A property of all characters written into the header. -/
structure Header.All (h : Header) (P : Char → Prop) : Prop where
  date : ∀ c ∈ h.date, P c
  version : ∀ c ∈ h.version, P c
  base : ∀ c ∈ h.base, P c
  begin_ : ∀ c ∈ h.begin_, P c
  end_ : ∀ c ∈ h.end_, P c
  floor : ∀ c ∈ h.floor, P c
  dt : ∀ c ∈ h.dt, P c
  cutoff : ∀ c ∈ h.cutoff, P c
  radius : ∀ c ∈ h.radius, P c
  bins : ∀ c ∈ h.bins, P c

/-- What is known of pandas: the text of a series that is not empty has one line per point with two words, which denote the time and the radius
up to rounding `rnd`; the text of an empty series is some line that contains a word that is not a number, and is
not the sign `&`, which ends a data set (it is `Series([], )`). -/
structure Prints (toStr : ToString) (rnd : ℚ → ℚ) : Prop where
  lines : ∀ s : Series, s ≠ [] → ∃ ls : List Text, toStr s = ['\n'].intercalate ls ∧ List.Forall₂ (fun (p : ℚ × ℚ) l =>
    (∀ c ∈ l, isBreak c = false ∧ c ≠ '@') ∧ ∃ a b, words l = [a, b] ∧ FloatText a (.num (rnd p.1)) ∧ FloatText b (.num (rnd p.2))) s ls
  empty : (∀ c ∈ toStr [], isBreak c = false ∧ c ≠ '@') ∧ toStr [] ≠ ['&'] ∧ ∃ w ∈ words (toStr []), ∀ v, ¬ FloatText w v

end Strata.SpreadingText
