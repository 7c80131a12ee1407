import Verif.Model.GmxFlow
import Verif.Model.Numeric
/-!
# Model of `strata/dataformats/simple` (reading and writing) and of the format selection

Simplifications: values are exact rationals, stored through a single precision codec (Model/Bytes.lean); rounding of
coordinates is exact; text files are ASCII, with plain decimal numbers and valid field names.
-/
namespace Strata.Simple
open Strata Strata.Flow Strata.Bytes Strata.PyText Strata.Files

/-! ## Writing -/

/-- The fields in the order of the format (strata/dataformats/simple/write.py:30, strata/dataformats/simple/read.py:145). -/
def fields : List Label := ["X", "Y", "N", "T", "M", "U", "V"]

/-- What is passed to the writer: a dict of arrays or a structured array (strata/dataformats/simple/write.py:33). -/
inductive Input where
  | dict (r : Record)
  | array (r : Record)

/-- `data[l]` (strata/dataformats/simple/write.py:37): a missing key is a `KeyError` for a dict, a missing field a
`ValueError` for an array. -/
def column (e : Err) (r : Record) (l : Label) : Except Err (List ℚ) := (col? r l).elim (.error e) .ok

/-- The columns to save (strata/dataformats/simple/write.py:32-40): arrays are sorted first; columns of different
lengths cannot form an array. -/
def saveData : Input → Except Err (List (List ℚ))
  | .dict r => do
    let cols ← fields.mapM (column .keyError r)
    if cols.all fun c => c.length == (cols.headD []).length then .ok cols else .error .valueError
  | .array r => do
    let r ← sortRecord r ["X", "Y"]
    let cols ← fields.mapM (column .valueError r)
    if cols.all fun c => c.length == (cols.headD []).length then .ok cols else .error .valueError

/-- The rows of the transposed array (strata/dataformats/simple/write.py:37). -/
def rowsOf (cols : List (List ℚ)) : List (List ℚ) :=
  (List.range (cols.headD []).length).map fun t => cols.map fun c => c.getD t 0

/-- `write_binsimple` (strata/dataformats/simple/write.py:22-23): rows one after the other, single precision. -/
def writeBinary (F : F32) (d : Input) : Except Err Bytes := do
  .ok ((rowsOf (← saveData d)).flatMap fun row => row.flatMap F.enc)

/-- Words joined by single spaces (strata/dataformats/simple/write.py:26-28). -/
def joinSp : List Text → Text
  | [] => []
  | [w] => w
  | w :: ws => w ++ ' ' :: joinSp ws

/-- The lines of the text format (strata/dataformats/simple/write.py:25-28); `'%6f'` never pads, as six decimals take
at least eight characters. -/
def plainLines (F : F32) (rows : List (List ℚ)) : List Text :=
  joinSp (fields.map String.toList) :: rows.map fun row => joinSp (row.map fun v => fixed6 (F.rnd v))

/-- `write_plainsimple` (strata/dataformats/simple/write.py:25-28). -/
def writePlain (F : F32) (d : Input) : Except Err Bytes := do
  .ok (ascii ((plainLines F (rowsOf (← saveData d))).flatMap fun l => l ++ ['\n']))

/-! ## Binary or text -/

/-- What a UTF-8 decoder says about some bytes: decodable, decodable but for an unfinished last character, or not. -/
inductive Utf8 where
  | ok | more | bad
  deriving DecidableEq, Repr

/-- A continuation byte within limits. -/
def cont (lo hi : ℕ) (b : UInt8) : Bool := decide (lo ≤ b.toNat) && decide (b.toNat ≤ hi)

/-- Python's UTF-8 decoder: the number of characters decoded and the state at the end
(strata/dataformats/simple/read.py:28-34). -/
def utf8 : Bytes → ℕ × Utf8
  | [] => (0, .ok)
  | a :: r =>
    if a.toNat < 0x80 then ((utf8 r).1 + 1, (utf8 r).2)
    else if 0xC2 ≤ a.toNat ∧ a.toNat ≤ 0xDF then
      match r with
      | [] => (0, .more)
      | b :: r => if cont 0x80 0xBF b then ((utf8 r).1 + 1, (utf8 r).2) else (0, .bad)
    else if 0xE0 ≤ a.toNat ∧ a.toNat ≤ 0xEF then
      match r with
      | [] => (0, .more)
      | b :: r =>
        if cont (if a.toNat = 0xE0 then 0xA0 else 0x80) (if a.toNat = 0xED then 0x9F else 0xBF) b then
          match r with
          | [] => (0, .more)
          | c :: r => if cont 0x80 0xBF c then ((utf8 r).1 + 1, (utf8 r).2) else (0, .bad)
        else (0, .bad)
    else if 0xF0 ≤ a.toNat ∧ a.toNat ≤ 0xF4 then
      match r with
      | [] => (0, .more)
      | b :: r =>
        if cont (if a.toNat = 0xF0 then 0x90 else 0x80) (if a.toNat = 0xF4 then 0x8F else 0xBF) b then
          match r with
          | [] => (0, .more)
          | c :: r =>
            if cont 0x80 0xBF c then
              match r with
              | [] => (0, .more)
              | d :: r => if cont 0x80 0xBF d then ((utf8 r).1 + 1, (utf8 r).2) else (0, .bad)
            else (0, .bad)
        else (0, .bad)
    else (0, .bad)

/-- `is_binary` (strata/dataformats/simple/read.py:28-34) for a UTF-8 locale: a text file is decoded in chunks of 8192
bytes; `read(512)` stops after the first one, unless the file ends before 512 characters, when an unfinished character
is an error as well.  Simplification: the merging of `\r\n` is left out of the count of characters. -/
def isBinary (content : Bytes) : Bool :=
  match utf8 (content.take 8192) with
  | (_, .bad) => true
  | (n, .more) => decide (n < 512)
  | (_, .ok) => false

/-! ## Reading -/

/-- Every `n`-th item from the `i`-th on, `a[i::n]` (strata/dataformats/simple/read.py:152). -/
def stride {α : Type} (d : α) (i n : ℕ) (a : List α) : List α :=
  (List.range ((a.length - i + n - 1) / n)).map fun k => a.getD (i + k * n) d

/-- `read_binsimple` (strata/dataformats/simple/read.py:132-158). -/
def readBinary (F : F32) (content : Bytes) : Record :=
  let raw := (fromFile 4 (content.length / 4) ⟨content, 0⟩).1.map F.dec
  fields.zipIdx.map fun p => (p.1, stride 0 p.2 7 raw)

/-- A text line without its comment, as words (`np.genfromtxt`, strata/dataformats/simple/read.py:172). -/
def dataWords (l : Text) : List Text := words (l.takeWhile (· ≠ '#'))

/-- The names in the first line, which may follow a comment sign (`np.genfromtxt(names=True)`,
strata/dataformats/simple/read.py:172). -/
def nameWords (l : Text) : List Text :=
  if '#' ∈ l then words ((l.dropWhile (· ≠ '#')).filter (· ≠ '#')) else words l

/-- `read_plainsimple` (strata/dataformats/simple/read.py:161-183): a table of one row becomes scalars (`none`, on which
`len` raises later); rows of another length than the first line raise `ValueError`.  Simplification: a word that is not
a number (a NaN for numpy) raises `ValueError` here. -/
def readPlain (content : Bytes) : Except Err (List Label × List (List ℚ)) := do
  let s ← decodeAscii content
  match (splitlines s).dropWhile fun l => decide (nameWords l = []) with
  | [] => .error .valueError
  | h :: ls =>
    let names := (nameWords h).map String.ofList
    let rows ← ((ls.map dataWords).filter (· ≠ [])).mapM fun ws =>
      if ws.length ≠ names.length then .error .valueError else ws.mapM pyFloat
    .ok (names, rows)

/-- The system information; a spacing that is not a number is `none` (strata/dataformats/simple/read.py:122-127). -/
structure SInfo where
  shape : ℕ × ℕ
  spacing : Option ℚ × Option ℚ
  origin : ℚ × ℚ
  numBins : ℕ
  deriving DecidableEq, Repr

/-- `calc_shape` (strata/dataformats/simple/read.py:78-96). -/
def calcShape (X Y : List ℚ) : Except Err (ℕ × ℕ) := do
  let r ← sortRecord [("X", X), ("Y", Y)] ["Y", "X"]
  match (col? r "Y").getD [] with
  | [] => .error .indexError
  | y0 :: ys =>
    let nx := 1 + (ys.takeWhile fun y => decide (|y - y0| < 1 / 10000)).length
    .ok (nx, X.length / nx)

/-- `calc_1d` (strata/dataformats/simple/read.py:99-106): dividing by 0 gives a NaN or infinity, no exception. -/
def calc1d (xs : List ℚ) (n : ℕ) : Except Err (Option ℚ) := do
  let x0 ← npMin xs
  let x1 ← npMax xs
  .ok (if n = 1 then none else some ((x1 - x0) / ((n : ℚ) - 1)))

/-- `calc_information` (strata/dataformats/simple/read.py:63-129). -/
def calcInformation (X Y : List ℚ) : Except Err SInfo := do
  if X.length ≠ Y.length then .error .valueError
  else do
    let (nx, ny) ← calcShape X Y
    let dx ← calc1d X nx
    let dy ← calc1d Y ny
    let x0 ← npMin X
    let y0 ← npMin Y
    .ok ⟨(nx, ny), (dx, dy), (x0, y0), nx * ny⟩

/-- Rounding to five decimals (strata/dataformats/simple/read.py:43-44). -/
def round5 (x : ℚ) : ℚ := (Average.pyRound (x * 10 ^ 5) : ℚ) / 10 ^ 5

/-- The data returned by the reader: the coordinates, which may be NaN, and the columns of the file. -/
structure Out where
  x : List (Option ℚ)
  y : List (Option ℚ)
  rest : Record
  deriving DecidableEq, Repr

/-- The part of `read_data` after reading the columns (strata/dataformats/simple/read.py:43-60). -/
def finish (r : Record) : Except Err (Out × SInfo) := do
  let X ← (col? r "X").elim (.error .keyError) .ok
  let Y ← (col? r "Y").elim (.error .keyError) .ok
  let i ← calcInformation (X.map round5) (Y.map round5)
  let (nx, ny) := i.shape
  .ok (⟨(List.range (nx * ny)).map fun t => i.spacing.1.map fun dx => i.origin.1 + dx * ((t / ny : ℕ) : ℚ),
        (List.range (nx * ny)).map fun t => i.spacing.2.map fun dy => i.origin.2 + dy * ((t % ny : ℕ) : ℚ),
        r.filter fun c => decide (c.1 ∉ ["X", "Y"])⟩, i)

/-- `read_data` (strata/dataformats/simple/read.py:5-60). -/
def readData (F : F32) (content : Bytes) : Except Err (Out × SInfo) :=
  if isBinary content then finish (readBinary F content)
  else do
    let (names, rows) ← readPlain content
    if rows.length = 1 then
      if "X" ∈ names ∧ "Y" ∈ names then .error .typeError else .error .keyError
    else finish (names.zipIdx.map fun p => (p.1, rows.map fun row => row.getD p.2 0))

/-! ## Selecting the format -/

/-- `write` (strata/dataformats/write.py:15-55) of a dict: the format by its name, `none` being no `ftype`.  The gmx writer
needs the information as a positional argument (`TypeError` without). -/
def write (F : F32) (data : Record) (info : Option Gmx.GInfo) (ftype : Option String) : Except Err Bytes :=
  match ftype with
  | none | some "default" | some "gmx" =>
    match info with
    | none => .error .typeError
    | some i => Gmx.writeData F data i
  | some "simple" => writeBinary F (.dict data)
  | some "simple_plain" => writePlain F (.dict data)
  | some _ => .error .keyError

end Strata.Simple
