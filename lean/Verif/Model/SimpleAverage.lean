import Verif.Model.Simple
/-!
# Model of `strata/dataformats/simple/average.py`

The averaging and combining functions of both file formats (strata/dataformats/simple/main.py:1 and
strata/dataformats/gmx_flow_version_1/main.py:1 import the same functions).

Simplifications: values are exact rationals; a dict of arrays is a `Record`, whose arrays are one-dimensional; arrays of
different lengths cannot be added (`ValueError`, leaving out numpy's broadcasting of single values, except in the
comparison of coordinates).
-/
namespace Strata.SimpleAverage
open Strata Strata.Flow

/-- `d[l]` (strata/dataformats/simple/average.py:32, :46, :49, :52). -/
def key (d : Record) (l : Label) : Except Err (List ℚ) := (col? d l).elim (.error .keyError) .ok

/-- `np.isclose` of two numbers (strata/dataformats/simple/average.py:41): relative to the second. -/
def isClose (atol rtol a b : ℚ) : Bool := decide (|a - b| ≤ atol + rtol * |b|)

/-- `np.isclose(a, b).all()` (strata/dataformats/simple/average.py:41): arrays of one value are broadcast, other
lengths must agree. -/
def allClose (atol rtol : ℚ) (a b : List ℚ) : Except Err Bool :=
  if a.length = b.length then .ok ((a.zip b).all fun p => isClose atol rtol p.1 p.2)
  else match a, b with
    | [x], b => .ok (b.all fun y => isClose atol rtol x y)
    | a, [y] => .ok (a.all fun x => isClose atol rtol x y)
    | _, _ => .error .valueError

/-- One coordinate check (strata/dataformats/simple/average.py:41, :66-67): the `AssertionError` becomes a
`ValueError`. -/
def checkCoord (atol rtol : ℚ) (d0 d : Record) (l : Label) : Except Err Unit := do
  let a ← key d0 l
  let b ← key d l
  if ← allClose atol rtol a b then .ok () else .error .valueError

/-- `np.sum(arrays, 0)` of arrays of the same length (strata/dataformats/simple/average.py:46, :52). -/
def sumArrays : List (List ℚ) → Except Err (List ℚ)
  | [] => .error .valueError
  | c :: cs =>
    if cs.all fun c' => c'.length == c.length then
      .ok ((List.range c.length).map fun t => ((c :: cs).map fun c' => c'.getD t 0).sum)
    else .error .valueError

/-- The largest double precision number, by which `np.nan_to_num` replaces infinity. -/
def maxFloat : ℚ := (2 ^ 53 - 1) * 2 ^ 971

/-- `np.nan_to_num(s / w)` (strata/dataformats/simple/average.py:57-59). -/
def quotient (s w : ℚ) : ℚ :=
  if w ≠ 0 then s / w else if s = 0 then 0 else if 0 < s then maxFloat else -maxFloat

/-- `get_avg` (strata/dataformats/simple/average.py:48-49). -/
def getAvg (ds : List Record) (l : Label) : Except Err (List ℚ) := do
  let s ← sumArrays (← ds.mapM fun d => key d l)
  .ok (s.map fun x => x / (ds.length : ℚ))

/-- `d[field] * d[weight]` (strata/dataformats/simple/average.py:52). -/
def weighted (l w : Label) (d : Record) : Except Err (List ℚ) := do
  let a ← key d l
  let b ← key d w
  if a.length = b.length then .ok (List.zipWith (· * ·) a b) else .error .valueError

/-- `get_weighted_avg` (strata/dataformats/simple/average.py:44-46, :51-59). -/
def getWeightedAvg (ds : List Record) (l w : Label) : Except Err (List ℚ) := do
  let s ← sumArrays (← ds.mapM (weighted l w))
  let ws ← sumArrays (← ds.mapM fun d => key d w)
  if s.length = ws.length then .ok (List.zipWith quotient s ws) else .error .valueError

/-- `average_data` (strata/dataformats/simple/average.py:4-77). -/
def averageData (ds : List Record) (atol : ℚ := 1 / 1000) (rtol : ℚ := 1 / 100000) : Except Err Record :=
  match ds with
  | [] => .ok []
  | d0 :: rest => do
    let x ← key d0 "X"
    let y ← key d0 "Y"
    let _ ← rest.mapM fun d => do
      checkCoord atol rtol d0 d "X"
      checkCoord atol rtol d0 d "Y"
    let _ ← sumArrays (← ds.mapM fun d => key d "N")
    let _ ← sumArrays (← ds.mapM fun d => key d "M")
    let m ← getAvg ds "M"
    let n ← getAvg ds "N"
    let u ← getWeightedAvg ds "U" "M"
    let v ← getWeightedAvg ds "V" "M"
    let t ← getWeightedAvg ds "T" "N"
    .ok [("X", x), ("Y", y), ("M", m), ("N", n), ("U", u), ("V", v), ("T", t)]

/-! ## Combining bins -/

/-- The information used by `combine_bins` (strata/dataformats/simple/average.py:106-117). -/
structure CInfo where
  shape : ℕ × ℕ
  spacing : ℚ × ℚ
  origin : ℚ × ℚ
  numBins : ℕ
  deriving DecidableEq, Repr

/-- The information of the combined bins (strata/dataformats/simple/average.py:106-117). -/
def combinedInfo (i : CInfo) (nx ny : ℕ) : CInfo :=
  let sh := (i.shape.1 / nx, i.shape.2 / ny)
  ⟨sh, (i.spacing.1 * nx, i.spacing.2 * ny),
    (i.origin.1 + 1 / 2 * i.spacing.1 * ((nx : ℚ) - 1), i.origin.2 + 1 / 2 * i.spacing.2 * ((ny : ℚ) - 1)), sh.1 * sh.2⟩

/-- `data[label].reshape(shape)` (strata/dataformats/simple/average.py:127, :131): the array as a function of its two
indices. -/
def reshaped (d : Record) (l : Label) (shape : ℕ × ℕ) : Except Err (ℕ → ℕ → ℚ) := do
  let c ← key d l
  if c.length = shape.1 * shape.2 then .ok fun a b => c.getD (a * shape.2 + b) 0 else .error .valueError

/-- The values of `a[nx*i:nx*(i+1), ny*j:ny*(j+1)]` (strata/dataformats/simple/average.py:138, :141). -/
def slice (nx ny i j : ℕ) (a : ℕ → ℕ → ℚ) : List ℚ :=
  (List.range (nx * ny)).map fun k => a (nx * i + k / ny) (ny * j + k % ny)

/-- `np.average(a, weights=w)`, 0 if the weights sum to 0 (strata/dataformats/simple/average.py:140-144). -/
def average (a w : List ℚ) : ℚ := if w.sum = 0 then 0 else (List.zipWith (· * ·) a w).sum / w.sum

/-- One combined field (strata/dataformats/simple/average.py:126-146); without a weight the values are summed. -/
def combineField (d : Record) (shape : ℕ × ℕ) (nx ny : ℕ) (l : Label) (w : Option Label) : Except Err (List ℚ) := do
  let ds ← reshaped d l shape
  let sh := (shape.1 / nx, shape.2 / ny)
  match w with
  | none => .ok ((List.range (sh.1 * sh.2)).map fun t => (slice nx ny (t / sh.2) (t % sh.2) ds).sum)
  | some w => do
    let ws ← reshaped d w shape
    .ok ((List.range (sh.1 * sh.2)).map fun t =>
      average (slice nx ny (t / sh.2) (t % sh.2) ds) (slice nx ny (t / sh.2) (t % sh.2) ws))

/-- `combine_bins` (strata/dataformats/simple/average.py:80-148).  `nx` and `ny` are natural numbers here; for negative ones see Model/ResampleInt.lean. -/
def combineBins (d : Record) (i : CInfo) (nx ny : ℕ) : Except Err (Record × CInfo) := do
  if nx = 0 ∨ ny = 0 then .error .zeroDivisionError
  else do
    let i' := combinedInfo i nx ny
    let (sx, sy) := i'.shape
    let n ← combineField d i.shape nx ny "N" none
    let m ← combineField d i.shape nx ny "M" none
    let t ← combineField d i.shape nx ny "T" (some "N")
    let u ← combineField d i.shape nx ny "U" (some "M")
    let v ← combineField d i.shape nx ny "V" (some "M")
    .ok ([("X", (List.range (sx * sy)).map fun t => i'.origin.1 + i'.spacing.1 * ((t / sy : ℕ) : ℚ)),
          ("Y", (List.range (sx * sy)).map fun t => i'.origin.2 + i'.spacing.2 * ((t % sy : ℕ) : ℚ)),
          ("N", n), ("M", m), ("T", t), ("U", u), ("V", v)], i')

end Strata.SimpleAverage
