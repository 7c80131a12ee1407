import Verif.Model.InterfaceText
import Verif.Spec.Cli
import Verif.Spec.InterfaceFiles
/-!
# Specification vocabulary for interface files as text
-/
namespace Strata.InterfaceText
open Strata Strata.Files Strata.PyText Strata.Flow Strata.Interface Strata.InterfaceFiles Strata.Cli Strata.SpreadingText

/-- No line end occurs in the texts inserted into the header. -/
structure Head.OneLine (h : Head) : Prop where
  date : '\n' ∉ h.date
  version : '\n' ∉ h.version
  dir : '\n' ∉ h.dir
  inputs : ∀ n ∈ h.inputs, '\n' ∉ n
  recenter : '\n' ∉ h.recenter
  options : ∀ o, h.options = some o → '\n' ∉ o.1 ∧ '\n' ∉ o.2.1 ∧ '\n' ∉ o.2.2

/-- A file holds the table `rows`: outside comments (from `#` to the end of the line) and empty lines there is one line per row, and its
words denote the numbers of the row. -/
def IsTable (content : Text) (rows : List (List Value)) : Prop := List.Forall₂ (List.Forall₂ FloatText) (tableWords content) rows

/-- `v` is `x` given with three decimals; NaN if `x` is undefined. -/
def Shown (x : Option ℝ) (v : Value) : Prop :=
  match x with
  | none => v = .nan
  | some x => ∃ n : ℤ, v = .num ((n : ℚ) / 1000) ∧ |(n : ℝ) / 1000 - x| ≤ 1 / 2000

/-- The names with `base`, `ext` and a number listed in `dir` are those of the existing files. -/
def Lists {γ : Type} (dir : Dir) (fs : FS γ) (base ext : Text) : Prop :=
  ∀ n : ℤ, Files.fileName base ext n ∈ dir ↔ (fs.get? (splitPath (Files.fileName base ext n))).isSome

end Strata.InterfaceText
