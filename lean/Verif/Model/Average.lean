import Verif.Model.Flow
import Verif.Model.Numeric
import Mathlib.Algebra.BigOperators.Group.List.Basic
/-!
# Model of `droplets/average.py`

A two-dimensional record array of shape `(ny, nx)` is a `Grid`: the flattened record (y-major) and its shape.
Missing fields raise `ValueError` in Numpy ("no field of name ...").
-/
namespace Strata.Average
open Strata Strata.Flow

/-- Python's `round` of a float to an integer: nearest, halves to even (droplets/average.py:213-214, :260-261). -/
def pyRound (x : ℚ) : ℤ :=
  let f := ⌊x⌋
  if x - f < 1 / 2 then f
  else if 1 / 2 < x - f then f + 1
  else if f % 2 = 0 then f else f + 1

/-- A record array of shape `(ny, nx)`. -/
structure Grid where
  nx : ℕ
  ny : ℕ
  data : Record
  deriving DecidableEq, Repr

/-- `data[label]`, raising for an unknown field. -/
def field (r : Record) (l : Label) : Except Err (List ℚ) :=
  match col? r l with
  | some c => .ok c
  | none => .error .valueError

/-- `get_min_and_max` (droplets/average.py:240-246). -/
def getMinMax (ds : List Record) (l : Label) : Except Err (ℚ × ℚ) := do
  let mins ← ds.mapM fun d => do npMin (← field d l)
  let maxs ← ds.mapM fun d => do npMax (← field d l)
  .ok (← npMin mins, ← npMax maxs)

/-- `get_combined_grid` (droplets/average.py:225-279).  A zero or wrongly signed spacing gives no positive
number of bins (Numpy raises when allocating or projecting); this is reported as `ValueError`. -/
def getCombinedGrid (ds : List Record) (spacing : ℚ × ℚ) (coords : Label × Label := ("X", "Y")) : Except Err Grid :=
  match ds with
  | [] => .error .valueError
  | first :: _ => do
    let nonempty := ds.filter fun d => 0 < size d
    let (xmin, xmax) ← getMinMax nonempty coords.1
    let (ymin, ymax) ← getMinMax nonempty coords.2
    let nx := pyRound ((xmax - xmin) / spacing.1) + 1
    let ny := pyRound ((ymax - ymin) / spacing.2) + 1
    if spacing.1 = 0 ∨ spacing.2 = 0 ∨ nx ≤ 0 ∨ ny ≤ 0 then .error .valueError
    else
      let nx := nx.toNat
      let ny := ny.toNat
      let xs := (List.range (nx * ny)).map fun t => xmin + spacing.1 * ((t % nx : ℕ) : ℚ)
      let ys := (List.range (nx * ny)).map fun t => ymin + spacing.2 * ((t / nx : ℕ) : ℚ)
      if coords.1 ∈ names first ∧ coords.2 ∈ names first then
        .ok ⟨nx, ny, (names first).map fun l =>
          (l, if l = coords.2 then ys else if l = coords.1 then xs else List.replicate (nx * ny) 0)⟩
      else .error .valueError

/-- The slice assignment `projected[j0:j1, i0:i1] = data.reshape(ny, nx)` for one column
(droplets/average.py:216-220). -/
def transferCol (NX NY i0 j0 nx ny : ℕ) (gridCol dataCol : List ℚ) : List ℚ :=
  (List.range (NX * NY)).map fun t =>
    let i := t % NX
    let j := t / NX
    if i0 ≤ i ∧ i < i0 + nx ∧ j0 ≤ j ∧ j < j0 + ny then dataCol.getD ((j - j0) * nx + (i - i0)) 0
    else gridCol.getD t 0

/-- `transfer_data` (droplets/average.py:177-222).  Records are assigned field by field in the order of the
fields.  The right-hand side must have the shape of the slice, or size 1 along an axis (broadcasting). -/
def transferData (g : Grid) (data : Record) (shape : Option (ℤ × ℤ)) (spacing : ℚ × ℚ)
    (coords : Label × Label := ("X", "Y")) : Except Err Record := do
  let x0g ← npMin (← field g.data coords.1)
  let y0g ← npMin (← field g.data coords.2)
  let x0d ← npMin (← field data coords.1)
  let y0d ← npMin (← field data coords.2)
  if spacing.1 = 0 ∨ spacing.2 = 0 then .error .valueError
  else
    let i0 := (max (pyRound (-(x0g - x0d) / spacing.1)) 0).toNat
    let j0 := (max (pyRound (-(y0g - y0d) / spacing.2)) 0).toNat
    match shape with
    | none => .error .typeError
    | some (nx, ny) =>
      if nx < 0 ∨ ny < 0 ∨ (size data : ℤ) ≠ nx * ny then .error .valueError
      else
        let nx := nx.toNat
        let ny := ny.toNat
        let w := min (i0 + nx) g.nx - i0
        let h := min (j0 + ny) g.ny - j0
        if data.length = g.data.length ∧ (nx = w ∨ nx = 1) ∧ (ny = h ∨ ny = 1) then
          .ok (List.zipWith (fun gc dc => (gc.1, transferCol g.nx g.ny i0 j0 nx ny gc.2 dc.2)) g.data data)
        else .error .valueError

/-- `a / b` followed by `np.nan_to_num` (droplets/average.py:157): 0/0 becomes 0, otherwise division by zero
gives the largest floating point number with the sign of `a` (`huge`). -/
def divNan (huge a b : ℚ) : ℚ :=
  if b = 0 then (if a = 0 then 0 else if 0 < a then huge else -huge) else a / b

/-- Column sums over the records, `data.sum(axis=0)` (droplets/average.py:157). -/
def colSum (n : ℕ) (cols : List (List ℚ)) : List ℚ :=
  (List.range n).map fun t => (cols.map fun c => c.getD t 0).sum

/-- `calc_arithmetic_mean` (droplets/average.py:138-143). -/
def arithmeticMean (l : Label) (n : ℕ) (ds : List Record) : Except Err (List ℚ) := do
  let cols ← ds.mapM fun d => do assign n (← field d l)
  .ok ((colSum n cols).map fun s => s / ds.length)

/-- `calc_weighted_mean` (droplets/average.py:145-157); any `ValueError` becomes `KeyError`.  `avg` is the
record being filled in, which holds the averaged weights. -/
def weightedMean (huge : ℚ) (l w : Label) (avg : Record) (n : ℕ) (ds : List Record) : Except Err (List ℚ) :=
  let cols := do
    let _ ← field avg l
    ds.mapM fun d => do assign n (List.zipWith (· * ·) (← field d l) (← field d w))
  match cols with
  | .error .valueError => .error .keyError
  | .error e => .error e
  | .ok cols => do
    let aw ← field avg w
    .ok (List.zipWith (fun s a => divNan huge s (ds.length * a)) (colSum n cols) aw)

/-- `average_data` (droplets/average.py:100-174).  (`assert_grids_equal`, :131-136, is defined but never
called.) -/
def averageData (huge : ℚ) (ds : List Record) (weights : List (Label × Label)) (coords : Label × Label := ("X", "Y")) :
    Except Err Record :=
  match ds with
  | [] => .error .indexError
  | first :: _ => do
    let weighted := weights.map Prod.fst
    let avg ← first.mapM fun lc =>
      if lc.1 = coords.1 ∨ lc.1 = coords.2 ∨ lc.1 ∈ weighted then .ok lc
      else do .ok (lc.1, ← arithmeticMean lc.1 (size first) ds)
    weights.foldlM (fun avg lw => do
      .ok (setCol avg lw.1 (← weightedMean huge lw.1 lw.2 avg (size first) ds))) avg

/-- `np.isclose` with the default tolerances (droplets/average.py:51). -/
def isClose (a b : ℚ) : Bool := |a - b| ≤ 1 / 100000000 + 1 / 100000 * |b|

/-- The comparison of two spacings in `get_spacing` (droplets/average.py:48-55): an unset spacing makes
`np.isclose` raise `TypeError`. -/
def spacingAgrees (first other : Option (ℚ × ℚ)) : Except Err Unit :=
  match other, first with
  | some a, some b => if isClose a.1 b.1 ∧ isClose a.2 b.2 then .ok () else .error .valueError
  | _, _ => .error .typeError

/-- `get_spacing` and the check of its result (droplets/average.py:48-55, :71-77). -/
def getSpacing (maps : List Flow) : Except Err (ℚ × ℚ) :=
  match maps with
  | [] => .error .valueError
  | first :: rest => do
    rest.forM fun f => spacingAgrees first.info.spacing f.info.spacing
    match first.info.spacing with
    | some s => .ok s
    | none => .error .valueError

/-- `get_flowdata` (droplets/average.py:57-69); the labels `X` and `Y` are fixed there. -/
def getFlowData (avg : Record) (g : Grid) (spacing : ℚ × ℚ) : Except Err Flow := do
  let x0 := (← field g.data "X").getD 0 0
  let y0 := (← field g.data "Y").getD 0 0
  mk (asArgs avg) [("shape", pairVal (some (g.nx, g.ny))), ("num_bins", .num (g.nx * g.ny)),
    ("origin", pairVal (some (x0, y0))), ("spacing", pairVal (some spacing))]

/-- `average_flow_data` (droplets/average.py:9-97). -/
def averageFlowData (huge : ℚ) (maps : List Flow) (weights : List (Label × Label) := []) (excludeEmpty : Bool := false)
    (coords : Label × Label := ("X", "Y")) : Except Err Flow := do
  let spacing ← getSpacing maps
  let used := maps.filter fun f => !excludeEmpty || decide (0 < size f.data)
  let g ← getCombinedGrid (used.map (·.data)) spacing coords
  let onGrid ← used.mapM fun f => transferData g f.data f.info.shape spacing coords
  let avg ← averageData huge onGrid weights coords
  getFlowData avg g spacing

end Strata.Average
