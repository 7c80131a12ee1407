import Verif.Model.PyText
/-!
# Model of the parameter types of `strata/strata.py`

Texts are ASCII.  Numbers are exact: rounding to the nearest double (and overflow to infinity) is left out.
-/
namespace Strata.Cli
open Strata Strata.Files Strata.PyText

/-- White space is removed from both ends before a number is read by `int` and `float` (strata/strata.py:37, :51). -/
def strip (s : Text) : Text := ((s.dropWhile isSpace).reverse.dropWhile isSpace).reverse

/-- The digits of a number, which may contain single underscores between digits; `prev` tells whether the character before is a
digit (`int`, `float`: strata/strata.py:37, :51). -/
def digitParts (prev : Bool) : Text → Option (List ℕ)
  | [] => if prev then some [] else none
  | c :: s =>
    if c.isDigit then (digitParts true s).map fun ds => (c.toNat - 48) :: ds
    else if c = '_' ∧ prev = true then digitParts false s
    else none

/-- The number with these decimal digits, most significant first. -/
def ofDigits (ds : List ℕ) : ℕ := ds.foldl (fun a d => 10 * a + d) 0

/-- Python's `int(text)` (strata/strata.py:37); `none` is `ValueError`. -/
def int? (s : Text) : Option ℤ :=
  let (sg, s) := signOf (strip s)
  (digitParts false s).map fun ds => sg * (ofDigits ds : ℤ)

/-- The values of floating point literals. -/
inductive Value where
  | num (q : ℚ)
  | inf (negative : Bool)
  | nan
  deriving DecidableEq, Repr

/-- A part of a literal that may be empty. -/
def optDigits (s : Text) : Option (List ℕ) := if s = [] then some [] else digitParts false s

/-- The digits before and after the point; not both may be missing. -/
def mantissa (s : Text) : Option (List ℕ × List ℕ) :=
  match optDigits (s.takeWhile (· ≠ '.')), optDigits ((s.dropWhile (· ≠ '.')).drop 1) with
  | some a, some b => if a ++ b = [] then none else some (a, b)
  | _, _ => none

/-- Whether a character begins an exponent. -/
def isE (c : Char) : Bool := c = 'e' || c = 'E'

/-- The exponent: nothing, or a signed sequence of digits after the letter. -/
def exponent : Text → Option ℤ
  | [] => some 0
  | _ :: s => (digitParts false (signOf s).2).map fun ds => (signOf s).1 * (ofDigits ds : ℤ)

/-- `str.lower()` on ASCII text (strata/strata.py:39, :53). -/
def lower (s : Text) : Text := s.map Char.toLower

/-- An unsigned floating point literal. -/
def unsigned (s : Text) : Option Value :=
  if lower s = ['i', 'n', 'f'] ∨ lower s = ['i', 'n', 'f', 'i', 'n', 'i', 't', 'y'] then some (.inf false)
  else if lower s = ['n', 'a', 'n'] then some .nan
  else match mantissa (s.takeWhile fun c => !isE c), exponent (s.dropWhile fun c => !isE c) with
    | some (a, b), some e => some (.num ((ofDigits (a ++ b) : ℚ) * 10 ^ (e - (b.length : ℤ))))
    | _, _ => none

/-- The value with a sign. -/
def Value.signed (sg : ℤ) : Value → Value
  | .num q => .num (sg * q)
  | .inf n => .inf (if sg = -1 then !n else n)
  | .nan => .nan

/-- Python's `float(text)` (strata/strata.py:51, :65); `none` is `ValueError`. -/
def float? (s : Text) : Option Value :=
  let (sg, s) := signOf (strip s)
  (unsigned s).map (·.signed sg)

/-- `OptIntParamType.convert` (strata/strata.py:35-42); a usage error ends the program. -/
def optInt (s : Text) : Except Err (Option ℤ) :=
  match int? s with
  | some n => .ok (some n)
  | none => if lower s = ['n', 'o', 'n', 'e'] then .ok none else .error .systemExit

/-- `OptFloatParamType.convert` (strata/strata.py:49-56). -/
def optFloat (s : Text) : Except Err (Option Value) :=
  match float? s with
  | some v => .ok (some v)
  | none => if lower s = ['n', 'o', 'n', 'e'] then .ok none else .error .systemExit

/-- `ListFloatValsParamType.convert` (strata/strata.py:63-67). -/
def listFloats (s : Text) : Except Err (List Value) :=
  match (words s).mapM float? with
  | some vs => .ok vs
  | none => .error .systemExit

/-- `ListStrsParamType.convert` (strata/strata.py:74-78). -/
def listStrs (s : Text) : List Text := words s

/-- A number or infinity. -/
inductive Bound where
  | num (n : ℤ)
  | inf
  deriving DecidableEq, Repr

/-- A keyword argument: `None`, or a number or infinity. -/
abbrev Kwargs := List (String × Option Bound)

/-- `set_none_to_inf` (strata/strata.py:1018-1020). -/
def setNoneToInf (kw : Kwargs) (label : String := "end") : Except Err Kwargs :=
  match kw.lookup label with
  | none => .error .keyError
  | some none => .ok (kw.map fun p => if p.1 = label then (p.1, some .inf) else p)
  | some (some _) => .ok kw

end Strata.Cli
