import Verif.Model.Basic
/-! # Specification vocabulary: reading decimal numerals (independent of the model) -/
namespace Strata.Spec

/-- Value of a digit character. -/
def digitValue : Char → Option Nat
  | '0' => some 0 | '1' => some 1 | '2' => some 2 | '3' => some 3 | '4' => some 4
  | '5' => some 5 | '6' => some 6 | '7' => some 7 | '8' => some 8 | '9' => some 9
  | _ => none

/-- The number denoted by a non-empty string of decimal digits, leading zeros allowed. -/
def readDigits (acc : Nat) : Text → Option Nat
  | [] => some acc
  | c :: cs => match digitValue c with
    | some d => readDigits (10 * acc + d) cs
    | none => none

def readNumeral (s : Text) : Option Nat := if s = [] then none else readDigits 0 s

/-- The integer denoted by an optionally signed numeral. -/
def readInteger : Text → Option Int
  | '-' :: s => (readNumeral s).map (fun n => -(n : Int))
  | s => (readNumeral s).map (fun n => (n : Int))

end Strata.Spec
