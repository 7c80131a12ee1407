import Verif.Model.Files
import Verif.Model.Average
/-!
# Python text and number formatting, on ASCII text

Simplifications: only ASCII text; `int` and `float` accept plain decimal notation (no underscores, exponents, `inf`
or `nan`).
-/
namespace Strata.PyText
open Strata Strata.Files

/-- ASCII white space as used by `str.split()` (strata/dataformats/gmx_flow_version_1/read.py:60-69). -/
def isSpace (c : Char) : Bool := c.toNat = 32 || (9 ≤ c.toNat && c.toNat ≤ 13) || (28 ≤ c.toNat && c.toNat ≤ 31)

/-- ASCII line ends as used by `str.splitlines()` (strata/dataformats/gmx_flow_version_1/read.py:93). -/
def isBreak (c : Char) : Bool := (10 ≤ c.toNat && c.toNat ≤ 13) || (28 ≤ c.toNat && c.toNat ≤ 30)

/-- The words of a text, `cur` being the reversed beginning of the current word. -/
def wordsAux (cur : Text) : Text → List Text
  | [] => if cur = [] then [] else [cur.reverse]
  | c :: cs =>
    if isSpace c then (if cur = [] then wordsAux [] cs else cur.reverse :: wordsAux [] cs)
    else wordsAux (c :: cur) cs

/-- `str.split()` (strata/dataformats/gmx_flow_version_1/read.py:60, :63, :66, :69). -/
def words (s : Text) : List Text := wordsAux [] s

/-- The lines of a text, `cur` being the reversed beginning of the current line. -/
def linesAux (cur : Text) : Text → List Text
  | [] => if cur = [] then [] else [cur.reverse]
  | c :: cs =>
    if c = '\r' ∧ cs.head? = some '\n' then linesAux cur cs
    else if isBreak c then cur.reverse :: linesAux [] cs
    else linesAux (c :: cur) cs

/-- `str.splitlines()` (strata/dataformats/gmx_flow_version_1/read.py:93); `'\r\n'` is one line end. -/
def splitlines (s : Text) : List Text := linesAux [] s

/-- The number denoted by a string of digits, from an accumulator. -/
def digits? (acc : ℕ) : Text → Option ℕ
  | [] => some acc
  | c :: cs => if c.isDigit then digits? (10 * acc + (c.toNat - 48)) cs else none

/-- Sign of a number and the rest of its text. -/
def signOf : Text → ℤ × Text
  | '-' :: s => (-1, s)
  | '+' :: s => (1, s)
  | s => (1, s)

/-- `int(text)` of a word (strata/dataformats/gmx_flow_version_1/read.py:60, :66). -/
def pyInt (s : Text) : Except Err ℤ :=
  let (sg, s) := signOf s
  if s = [] then .error .valueError
  else match digits? 0 s with
    | some n => .ok (sg * n)
    | none => .error .valueError

/-- `float(text)` of a word (strata/dataformats/gmx_flow_version_1/read.py:63). -/
def pyFloat (s : Text) : Except Err ℚ :=
  let (sg, s) := signOf s
  let ip := s.takeWhile (· ≠ '.')
  let fp := (s.dropWhile (· ≠ '.')).drop 1
  if ip ++ fp = [] then .error .valueError
  else match digits? 0 (ip ++ fp) with
    | some n => .ok (sg * (n / 10 ^ fp.length))
    | none => .error .valueError

/-- `'{:f}'.format(x)`: six decimals, ties to even (strata/dataformats/gmx_flow_version_1/write.py:52, :54). -/
def fixed6 (x : ℚ) : Text :=
  let v := (Average.pyRound (|x| * 10 ^ 6)).toNat
  (if x < 0 then ['-'] else []) ++ decimal (v / 10 ^ 6) ++ '.' :: padded 6 (v % 10 ^ 6)

/-- `'{:12f}'.format(x)`: padded to twelve characters with spaces on the left
(strata/dataformats/gmx_flow_version_1/write.py:52, :54). -/
def fmt12f (x : ℚ) : Text := List.replicate (12 - (fixed6 x).length) ' ' ++ fixed6 x

/-- `str.upper()` on ASCII text (strata/dataformats/gmx_flow_version_1/read.py:94). -/
def upper (s : Text) : Text := s.map Char.toUpper

end Strata.PyText
