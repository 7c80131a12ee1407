import Verif.Spec.Simple
import Verif.Model.InterfaceText
import Mathlib.Data.Nat.Digits.Defs
/-!
# Specification vocabulary for tables laid out by hand
-/
namespace Strata.Layout
open Strata Strata.Flow

/-- Nothing but blanks and tabs. -/
def Blank (p : Text) : Prop := ∀ c ∈ p, c = ' ' ∨ c = '\t'

/-- A line with the given words, with any blanks and tabs before, between and after them. -/
inductive Holds : List Text → Text → Prop
  | nothing (p : Text) : Blank p → Holds [] p
  | last (p w : Text) : Blank p → Holds [w] (p ++ w)
  | next (p w : Text) (c : Char) (ws : List Text) (rest : Text) : Blank p → (c = ' ' ∨ c = '\t') → Holds ws rest → Holds (w :: ws) (p ++ (w ++ c :: rest))

/-- Text that may stand in a comment: printable characters and tabs. -/
def Remark (t : Text) : Prop := ∀ c ∈ t, (32 ≤ c.toNat ∧ c.toNat ≤ 126) ∨ c = '\t'

/-- A line with the given words, which may end with a comment. -/
def HoldsOr (ws : List Text) (l : Text) : Prop := Holds ws l ∨ ∃ l' t, l = l' ++ '#' :: t ∧ Holds ws l' ∧ Remark t

/-- The line of names, which may follow a comment sign. -/
def Head (ns : List Text) (l : Text) : Prop := Holds ns l ∨ ∃ t l', l = t ++ '#' :: l' ∧ Remark t ∧ '#' ∉ t ∧ Holds ns l'

/-- A text of the given lines, each ended by a line feed or by a carriage return and a line feed, but the last perhaps not ended. -/
inductive Ended : List Text → Text → Prop
  | nothing : Ended [] []
  | unended (l : Text) : l ≠ [] → Ended [l] l
  | lf (l : Text) (ls : List Text) (s : Text) : Ended ls s → Ended (l :: ls) (l ++ '\n' :: s)
  | crlf (l : Text) (ls : List Text) (s : Text) : Ended ls s → Ended (l :: ls) (l ++ '\r' :: '\n' :: s)

/-- Lines with the given rows in order, among lines that are empty or hold nothing but a comment. -/
def Rows (rows : List (List Text)) (ls : List Text) : Prop := ∃ all : List (List Text), List.Forall₂ HoldsOr all ls ∧ all.filter (· ≠ []) = rows

/-- A table written with single blanks and nothing else. -/
def rowsText (rows : List (List Text)) : Text := rows.flatMap fun ws => ([' '].intercalate ws) ++ ['\n']

/-! ## Headers of binary maps -/

/-- A word of a header: printable, without spaces. -/
def Printed (w : Text) : Prop := w ≠ [] ∧ ∀ c ∈ w, 33 ≤ c.toNat ∧ c.toNat ≤ 126

/-- A header with the given words on its lines, none of them empty: in any layout. -/
def HeaderText (lines : List (List Text)) (s : Text) : Prop :=
  (∀ ws ∈ lines, ws ≠ [] ∧ ∀ w ∈ ws, Printed w) ∧ ∃ ls : List Text, List.Forall₂ Holds lines ls ∧ Ended ls s

/-- The line begins with the key, in capital letters or not. -/
def Keyed (key : String) (ws : List Text) : Prop := ∃ k vs, ws = k :: vs ∧ k.map Char.toUpper = key.toList

/-- Some line has the key and the values, and no line has the key and other values. -/
def Says (lines : List (List Text)) (key : String) (vs : List Text) : Prop :=
  (∃ k, k.map Char.toUpper = key.toList ∧ k :: vs ∈ lines) ∧ ∀ k vs', k :: vs' ∈ lines → k.map Char.toUpper = key.toList → vs' = vs

/-- A word that is no number: it has no digit, and is none of the names that `float` knows. -/
def NoNumber (w : Text) : Prop :=
  (∀ c ∈ w, c.isDigit = false) ∧ w.map Char.toLower ∉ ["inf", "infinity", "nan"].flatMap fun n => ["", "+", "-"].map fun sg => (sg ++ n).toList

/-- The digits of a number, as text. -/
def digitsText (ds : List ℕ) : Text := ds.map fun d => Char.ofNat (48 + d)

/-- A sign and its factor. -/
inductive Sign : Text → ℤ → Prop
  | none : Sign [] 1
  | plus : Sign ['+'] 1
  | minus : Sign ['-'] (-1)

/-- The word is the whole number `n`: an optional sign and decimal digits, the most significant first. -/
def Whole (w : Text) (n : ℤ) : Prop :=
  ∃ p sg ds, Sign p sg ∧ ds ≠ [] ∧ (∀ d ∈ ds, d < 10) ∧ w = p ++ digitsText ds ∧ n = sg * (Nat.ofDigits 10 ds.reverse : ℕ)

/-- The word is the number `x` in decimal notation: an optional sign, digits, and perhaps a point and digits of the fraction (some digit in all). -/
def Decimal (w : Text) (x : ℚ) : Prop :=
  ∃ p sg ds es, Sign p sg ∧ ds ++ es ≠ [] ∧ (∀ d ∈ ds ++ es, d < 10) ∧
    (w = p ++ digitsText ds ++ '.' :: digitsText es ∨ (es = [] ∧ w = p ++ digitsText ds)) ∧ x = sg * ((Nat.ofDigits 10 (ds ++ es).reverse : ℕ) / 10 ^ es.length)

/-- The values of a header. -/
structure Values where
  shape : ℤ × ℤ
  spacing : ℚ × ℚ
  origin : ℚ × ℚ
  fields : List Text
  num : ℤ

/-- The lines give the values; whatever follows two numbers of a pair, and the one of the number of bins, does not count. -/
structure Gives (lines : List (List Text)) (v : Values) : Prop where
  shape : ∃ a b more, Says lines "SHAPE" (a :: b :: more) ∧ Whole a v.shape.1 ∧ Whole b v.shape.2
  spacing : ∃ a b more, Says lines "SPACING" (a :: b :: more) ∧ Decimal a v.spacing.1 ∧ Decimal b v.spacing.2
  origin : ∃ a b more, Says lines "ORIGIN" (a :: b :: more) ∧ Decimal a v.origin.1 ∧ Decimal b v.origin.2
  fields : Says lines "FIELDS" v.fields
  num : ∃ a more, Says lines "NUMDATA" (a :: more) ∧ Whole a v.num

/-- The file reaches to the end of the block of 1024 bytes with the end of its header. -/
def LongEnough (s : Text) (data : Bytes.Bytes) : Prop := 1024 * (s.length / 1024 + 1) ≤ s.length + 1 + data.length

end Strata.Layout
