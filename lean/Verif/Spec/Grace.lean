import Verif.Spec.SpreadingText
import Verif.Spec.Layout
/-!
# Specification vocabulary for Grace (xvg) files

A Grace file has lines of settings, which begin with `@`, and data sets: a line `@target <name>`, lines of numbers and
settings, and a line `&`.
-/
namespace Strata.Grace
open Strata Strata.Files Strata.Cli Strata.Layout

/-- A line of numbers, with any blanks and tabs before, between and after them. -/
def RowLine (vs : List Value) (l : Text) : Prop :=
  ∃ ws, Holds ws l ∧ List.Forall₂ FloatText ws vs ∧ ∀ w ∈ ws, Printed w

/-- A line of settings, or the end of the set. -/
def OtherLine (l : Text) : Prop := l = ['&'] ∨ ∃ t, l = '@' :: t

/-- A line of a data set, with the numbers it holds, if any. -/
def SetLine (row : Option (List Value)) (l : Text) : Prop :=
  match row with
  | some vs => RowLine vs l
  | none => OtherLine l

/-- A data set: its name, and its lines. -/
structure DataSet where
  name : Text
  lines : List Text

/-- The set has these rows, all with `m` numbers, and there is at least one. -/
structure DataSet.Has (d : DataSet) (m : ℕ) (rows : List (List Value)) : Prop where
  lines : ∃ items : List (Option (List Value)), List.Forall₂ SetLine items d.lines ∧ items.filterMap id = rows
  some : rows ≠ []
  width : ∀ r ∈ rows, r.length = m
  pos : 1 ≤ m

/-- The lines of the file after the settings `head`. -/
def graceLines (head : List Text) (sets : List DataSet) : List Text :=
  head ++ sets.flatMap fun d => ("@target ".toList ++ d.name) :: d.lines

/-- The file: every line is ended by a line feed. -/
def graceText (head : List Text) (sets : List DataSet) : Text := (graceLines head sets).flatMap fun l => l ++ ['\n']

/-- Lines of printable characters and tabs in which no data set begins. -/
def Plain (l : Text) : Prop := Remark l ∧ ¬ "@target ".toList <:+: l

/-- The curves of a set: one for every column after the first, which has the times; no point for a radius that is NaN. -/
def curves (m : ℕ) (rows : List (List Value)) : List (List (Value × Value)) :=
  (List.range (m - 1)).map fun i : ℕ => (rows.map fun r => (r.getD 0 .nan, r.getD (i + 1) .nan)).filter fun p => p.2 ≠ .nan

end Strata.Grace
