import Verif.Model.Cli
/-!
# Specification: Python's grammar of integer and floating point literals, on ASCII text
-/
namespace Strata.Cli
open Strata Strata.Files Strata.PyText

/-- ASCII white space: blank, tab, line feed, vertical tab, form feed, carriage return and the four separators. -/
def isWhite (c : Char) : Bool := c ∈ [' ', '\t', '\n', '\x0b', '\x0c', '\r', '\x1c', '\x1d', '\x1e', '\x1f']

/-- White space only. -/
def Blank (s : Text) : Prop := ∀ c ∈ s, isWhite c = true

/-- The text consists of these words, with white space between them and possibly around them. -/
inductive WordsOf : Text → List Text → Prop
  | none (gap : Text) : Blank gap → WordsOf gap []
  | last (gap w : Text) : Blank gap → w ≠ [] → (∀ c ∈ w, isWhite c = false) → WordsOf (gap ++ w) [w]
  | more (gap w : Text) (c : Char) (rest : Text) (ws : List Text) : Blank gap → w ≠ [] → (∀ c ∈ w, isWhite c = false) → isWhite c = true →
      WordsOf rest ws → WordsOf (gap ++ w ++ c :: rest) (w :: ws)

/-- A non-empty sequence of decimal digits with values `ds`, in which single underscores may stand between digits. -/
inductive Digits : Text → List ℕ → Prop
  | one (d : ℕ) : d < 10 → Digits [Nat.digitChar d] [d]
  | more (d : ℕ) (s : Text) (ds : List ℕ) : d < 10 → Digits s ds → Digits (Nat.digitChar d :: s) (d :: ds)
  | underscore (d : ℕ) (s : Text) (ds : List ℕ) : d < 10 → Digits s ds → Digits (Nat.digitChar d :: '_' :: s) (d :: ds)

/-- The number with these decimal digits, most significant first. -/
def number (ds : List ℕ) : ℕ := Nat.ofDigits 10 ds.reverse

/-- An optional sign. -/
inductive Sign : Text → ℤ → Prop
  | none : Sign [] 1
  | plus : Sign ['+'] 1
  | minus : Sign ['-'] (-1)

/-- The text denotes the integer `n`. -/
def IntText (s : Text) (n : ℤ) : Prop :=
  ∃ a sg body b k ds, s = a ++ sg ++ body ++ b ∧ Blank a ∧ Blank b ∧ Sign sg k ∧ Digits body ds ∧ n = k * (number ds : ℤ)

/-- Equal up to the letter case of the first text; the second one is in lower case. -/
def SameLetters (s t : Text) : Prop := List.Forall₂ (fun c d => c = d ∨ c = d.toUpper) s t

/-- Digits, or nothing. -/
def OptDigits (s : Text) (ds : List ℕ) : Prop := (s = [] ∧ ds = []) ∨ Digits s ds

/-- Digits with an optional decimal point among or around them: all digits, and the number of those after the point. -/
def Mantissa (s : Text) (ds : List ℕ) (after : ℕ) : Prop :=
  (Digits s ds ∧ after = 0) ∨
    ∃ a b da db, s = a ++ '.' :: b ∧ OptDigits a da ∧ OptDigits b db ∧ ds = da ++ db ∧ ds ≠ [] ∧ after = db.length

/-- An optional exponent. -/
def Exponent (s : Text) (e : ℤ) : Prop :=
  (s = [] ∧ e = 0) ∨ ∃ c sg body k ds, (c = 'e' ∨ c = 'E') ∧ s = c :: (sg ++ body) ∧ Sign sg k ∧ Digits body ds ∧ e = k * (number ds : ℤ)

/-- An unsigned literal and its value. -/
inductive Literal : Text → Value → Prop
  | inf (s : Text) : SameLetters s ['i', 'n', 'f'] → Literal s (.inf false)
  | infinity (s : Text) : SameLetters s ['i', 'n', 'f', 'i', 'n', 'i', 't', 'y'] → Literal s (.inf false)
  | nan (s : Text) : SameLetters s ['n', 'a', 'n'] → Literal s .nan
  | decimal (m x : Text) (ds : List ℕ) (after : ℕ) (e : ℤ) : Mantissa m ds after → Exponent x e →
      Literal (m ++ x) (.num ((number ds : ℚ) * 10 ^ (e - (after : ℤ))))

/-- The value with a sign. -/
inductive Signed : ℤ → Value → Value → Prop
  | pos (v : Value) : Signed 1 v v
  | negNum (q : ℚ) : Signed (-1) (.num q) (.num (-q))
  | negInf (b : Bool) : Signed (-1) (.inf b) (.inf !b)
  | negNan : Signed (-1) .nan .nan

/-- The text denotes the floating point value `v`. -/
def FloatText (s : Text) (v : Value) : Prop :=
  ∃ a sg body b k w, s = a ++ sg ++ body ++ b ∧ Blank a ∧ Blank b ∧ Sign sg k ∧ Literal body w ∧ Signed k w v

end Strata.Cli
