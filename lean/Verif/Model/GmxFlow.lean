import Verif.Model.Bytes
/-!
# Model of `strata/dataformats/gmx_flow_version_1`

Simplifications: values are exact rationals, stored through a single precision codec (Model/Bytes.lean); shapes are
natural numbers when writing; `prepare_path` (strata/utils.py) is modelled in Model/Files.lean.
-/
namespace Strata.Gmx
open Strata Strata.Flow Strata.Average Strata.Bytes Strata.PyText Strata.Files

/-- The information the writer needs (strata/dataformats/gmx_flow_version_1/write.py:28, :43-45). -/
structure GInfo where
  shape : ℕ × ℕ
  spacing : ℚ × ℚ
  origin : ℚ × ℚ
  deriving DecidableEq, Repr

/-- The fields in the order of the file (strata/dataformats/gmx_flow_version_1/write.py:6). -/
def fieldsOrdered : List Label := ["N", "T", "M", "U", "V"]

/-- The fixed comment lines of the header (strata/dataformats/gmx_flow_version_1/write.py:62-75). -/
def comments : List Text := [
  "COMMENT Grid is regular but only non-empty bins are output".toList,
  "COMMENT There are 'NUMDATA' non-empty bins and that many values are stored for each field".toList,
  "COMMENT 'FIELDS' is the different fields for each bin:".toList,
  "COMMENT 'IX' and 'IY' are bin indices along x and y respectively".toList,
  "COMMENT 'N' is the average number of atoms".toList,
  "COMMENT 'M' is the average mass".toList,
  "COMMENT 'T' is the temperature".toList,
  "COMMENT 'U' and 'V' is the mass flow along x and y respectively".toList,
  "COMMENT Data is stored as 'NUMDATA' counts for each field in 'FIELDS', in order".toList,
  "COMMENT 'IX' and 'IY' are 64-bit unsigned integers".toList,
  "COMMENT Other fields are 32-bit floating point numbers".toList,
  "COMMENT Example: with 'NUMDATA' = 4 and 'FIELDS' = 'IX IY N T', the data following the '\\0' marker is 4 + 4 64-bit integers and then 4 + 4 32-bit floating point numbers".toList]

/-- The lines of the header (strata/dataformats/gmx_flow_version_1/write.py:50-75). -/
def headerLines (i : GInfo) (num : ℕ) : List Text := [
  "FORMAT GMX_FLOW_1".toList,
  "ORIGIN ".toList ++ fmt12f i.origin.1 ++ ' ' :: fmt12f i.origin.2,
  "SHAPE ".toList ++ decimal i.shape.1 ++ ' ' :: decimal i.shape.2,
  "SPACING ".toList ++ fmt12f i.spacing.1 ++ ' ' :: fmt12f i.spacing.2,
  "NUMDATA ".toList ++ decimal num,
  "FIELDS IX IY N T M U V".toList] ++ comments

/-- The header text: every line ends in a newline (strata/dataformats/gmx_flow_version_1/write.py:50-75). -/
def headerText (i : GInfo) (num : ℕ) : Text := (headerLines i num).flatMap fun l => l ++ ['\n']

/-- `write_header` (strata/dataformats/gmx_flow_version_1/write.py:50-77). -/
def header (i : GInfo) (num : ℕ) : Bytes := ascii (headerText i num) ++ [0]

/-- A boolean mask of another length than the array raises `IndexError`
(strata/dataformats/gmx_flow_version_1/write.py:38-40). -/
def masked {α : Type} (mask : List Bool) (a : List α) : Except Err (List α) :=
  if mask.length ≠ a.length then .error .indexError
  else .ok ((a.zip mask).filterMap fun p => if p.2 then some p.1 else none)

/-- `write_data` (strata/dataformats/gmx_flow_version_1/write.py:8-48): the bytes of the file. -/
def writeData (F : F32) (data : Record) (i : GInfo) (check : Label := "M") : Except Err Bytes := do
  let c ← (col? data check).elim (.error .keyError) .ok
  let inds := c.map fun m => decide (m ≠ 0)
  let num := (inds.filter id).length
  let (nx, ny) := i.shape
  let ixs ← masked inds ((List.range (nx * ny)).map fun t => t / ny)
  let iys ← masked inds ((List.range (nx * ny)).map fun t => t % ny)
  let cols ← fieldsOrdered.mapM fun l => do
    let c ← (col? data l).elim (.error .keyError) .ok
    masked inds c
  .ok (header i num ++ ixs.flatMap u64 ++ iys.flatMap u64 ++ cols.flatMap fun c => c.flatMap F.enc)

/-! ## Reading -/

/-- `read_header_string` (strata/dataformats/gmx_flow_version_1/read.py:71-88), with an explicit bound on the number of
reads: each but the last moves on by 1024 bytes, and at the end of the file the loop never ends. -/
def readHeaderString (f : File) : ℕ → Except Err (Text × File)
  | 0 => .error .infiniteLoop
  | fuel + 1 =>
    let (buf, f') := f.read 1024
    if 0 ∈ buf then do
      let pos := buf.idxOf 0
      let s ← decodeAscii (buf.take pos)
      let f'' ← f'.back (1024 - pos - 1)
      .ok (s, f'')
    else if buf = [] then .error .infiniteLoop
    else do
      let s ← decodeAscii buf
      let (s', f'') ← readHeaderString f' fuel
      .ok (s ++ s', f'')

/-- The values gathered from the header lines (strata/dataformats/gmx_flow_version_1/read.py:90-105). -/
structure Head where
  shape : Option (List ℤ) := none
  spacing : Option (List ℚ) := none
  origin : Option (List ℚ) := none
  fields : Option (List Text) := none
  num : Option ℤ := none
  deriving DecidableEq, Repr

/-- One header line (strata/dataformats/gmx_flow_version_1/read.py:94-105); a blank line raises `IndexError`. -/
def headLine (h : Head) (line : Text) : Except Err Head :=
  match words line with
  | [] => .error .indexError
  | w :: ws =>
    if upper w = "SHAPE".toList then do .ok { h with shape := some (← (ws.take 2).mapM pyInt) }
    else if upper w = "SPACING".toList then do .ok { h with spacing := some (← (ws.take 2).mapM pyFloat) }
    else if upper w = "ORIGIN".toList then do .ok { h with origin := some (← (ws.take 2).mapM pyFloat) }
    else if upper w = "FIELDS".toList then .ok { h with fields := some ws }
    else if upper w = "NUMDATA".toList then
      match ws with
      | [] => .error .indexError
      | v :: _ => do .ok { h with num := some (← pyInt v) }
    else .ok h

/-- `read_header` (strata/dataformats/gmx_flow_version_1/read.py:56-109): the values and the file at the data. -/
def readHeader (content : Bytes) : Except Err (Head × File) := do
  let (s, f) ← readHeaderString ⟨content, 0⟩ (content.length / 1024 + 1)
  let h ← (splitlines s).foldlM headLine {}
  match h.shape with
  | none => .error .keyError
  | some [_, _] =>
    match h.fields, h.num with
    | some _, some _ => .ok (h, f)
    | _, _ => .error .unboundLocalError
  | some _ => .error .indexError

/-- An array read from the file. -/
inductive Arr where
  | ints (a : List ℕ)
  | floats (a : List ℚ)
  deriving DecidableEq, Repr

/-- `read_values` (strata/dataformats/gmx_flow_version_1/read.py:40-54).  A negative count means "everything" to
`np.fromfile` and is not modelled (`ValueError`). -/
def readValues (F : F32) (f : File) (num : ℤ) : List Text → Except Err (List (Text × Arr))
  | [] => .ok []
  | l :: ls =>
    if num < 0 then .error .valueError
    else if l = "IX".toList ∨ l = "IY".toList then do
      let (ps, f') := fromFile 8 num.toNat f
      .ok ((l, .ints (ps.map ofBytes)) :: (← readValues F f' num ls))
    else if l ∈ fieldsOrdered.map String.toList then do
      let (ps, f') := fromFile 4 num.toNat f
      .ok ((l, .floats (ps.map F.dec)) :: (← readValues F f' num ls))
    else .error .keyError

/-- Numpy broadcasting of a one-dimensional array to length `n` (strata/dataformats/gmx_flow_version_1/read.py:34). -/
def bcast {α : Type} (n : ℕ) (a : List α) : Option (List α) :=
  if a.length = n then some a
  else match a with
    | [x] => some (List.replicate n x)
    | _ => none

/-- Length of two arrays broadcast together (strata/dataformats/gmx_flow_version_1/read.py:34). -/
def bcastLen (m n : ℕ) : Option ℕ := if m = n then some m else if m = 1 then some n else if n = 1 then some m else none

/-- `grid[l][ix, iy] = vs` on a grid of shape `(nx, ny)`, flattened (strata/dataformats/gmx_flow_version_1/read.py:34,
:36): the index arrays are broadcast together (`IndexError` if impossible or out of range), then the values to them
(`ValueError` if impossible); later values override earlier ones.  Simplification: indices of 2^63 and more, which numpy takes for negative ones
counted from the end, are out of range here. -/
def assign (nx ny : ℕ) (ix iy : List ℕ) (vs : List ℚ) : Except Err (List ℚ) :=
  match bcastLen ix.length iy.length with
  | none => .error .indexError
  | some n =>
    match bcast n ix, bcast n iy with
    | some ix, some iy =>
      if ¬ ((ix.zip iy).all fun p => decide (p.1 < nx ∧ p.2 < ny)) then .error .indexError
      else match bcast n vs with
        | none => .error .valueError
        | some vs => .ok (((ix.zip iy).zip vs).foldl (fun col p => col.set (p.1.1 * ny + p.1.2) p.2)
            (List.replicate (nx * ny) 0))
    | _, _ => .error .indexError

/-- `data[l]` of the arrays read; a later field of the same name replaces an earlier one
(strata/dataformats/gmx_flow_version_1/read.py:51-54). -/
def arr? (d : List (Text × Arr)) (l : Text) : Option Arr := d.reverse.lookup l

/-- `grid[l][data['IX'], data['IY']] = data[l]` for one field (strata/dataformats/gmx_flow_version_1/read.py:33-34). -/
def fieldCol (nx ny : ℕ) (d : List (Text × Arr)) (l : Label) : Except Err (Label × List ℚ) :=
  match arr? d "IX".toList, arr? d "IY".toList, arr? d l.toList with
  | some (.ints ix), some (.ints iy), some (.floats vs) => do .ok (l, ← assign nx ny ix iy vs)
  | _, _, _ => .error .keyError

/-- `read_data` (strata/dataformats/gmx_flow_version_1/read.py:5-38): the columns and the information. -/
def readData (F : F32) (content : Bytes) : Except Err (Record × Info) := do
  let (h, f) ← readHeader content
  let d ← readValues F f (h.num.getD 0) (h.fields.getD [])
  match h.origin, h.shape, h.spacing with
  | some [x0, y0], some [nx, ny], some [dx, dy] =>
    if nx < 0 ∨ ny < 0 then .error .valueError
    else do
      let nx' := nx.toNat
      let ny' := ny.toNat
      let cols ← fieldsOrdered.mapM (fieldCol nx' ny' d)
      .ok ([("X", (List.range (nx' * ny')).map fun t => x0 + dx * (((t / ny' : ℕ) : ℚ) + 1 / 2)),
            ("Y", (List.range (nx' * ny')).map fun t => y0 + dy * (((t % ny' : ℕ) : ℚ) + 1 / 2))] ++ cols,
        { shape := some (nx, ny), origin := some (x0, y0), spacing := some (dx, dy), numBins := some (nx * ny) })
  | none, _, _ => .error .keyError
  | _, _, none => .error .keyError
  | _, _, _ => .error .valueError

/-- `guess_read_module` (strata/dataformats/read.py:12-36) of a readable file: whether the gmx reader is chosen. -/
def isGmx (content : Bytes) : Bool :=
  let buf := content.take 100
  (ascii "FORMAT GMX_FLOW_1".toList).isPrefixOf buf || (ascii "FORMAT GMX_FLOW_2".toList).isPrefixOf buf

end Strata.Gmx
