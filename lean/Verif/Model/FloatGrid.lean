import Verif.Model.Driver
import Verif.Model.FloatAverage
import Verif.Model.InterfaceFiles
/-!
# Grid arithmetic in floating point

The functions of Model/Driver.lean, Model/Average.lean and Model/InterfaceFiles.lean that compute numbers of bins and indices from positions, with every
arithmetic result rounded.  The rounding `fl` and the order of additions `sum` are parameters (see Model/FloatAverage.lean; `roundBits 53` is double
precision).  Simplifications: no overflow or underflow; differences of integers held as floats are exact, as they are below 2 ^ 53.
-/
namespace Strata.FloatGrid
open Strata Strata.Flow Strata.Average Strata.SimpleAverage Strata.Driver

/-! ## strata/average.py -/

/-- `np.diff` (strata/average.py:202). -/
def npDiff (fl : ℚ → ℚ) : List ℚ → List ℚ
  | a :: b :: l => fl (b - a) :: npDiff fl (b :: l)
  | _ => []

/-- `np.mean(np.diff(np.unique(c)))` (strata/average.py:202, :229). -/
def spacingOf (fl : ℚ → ℚ) (sum : List ℚ → ℚ) (c : List ℚ) : Option ℚ :=
  if npDiff fl (npUnique c) = [] then none else some (fl (sum (npDiff fl (npUnique c)) / ((npDiff fl (npUnique c)).length : ℚ)))

/-- `(v - origin) / spacing`, rounded to an integer (strata/average.py:203-204). -/
def column (fl : ℚ → ℚ) (o h v : ℚ) : ℤ := pyRound (fl (fl (v - o) / h))

/-- The position of column `k`, `k * spacing + origin` (strata/average.py:205). -/
def place (fl : ℚ → ℚ) (o h : ℚ) (k : ℤ) : ℚ := fl (fl ((k : ℚ) * h) + o)

/-- The translated x positions of one map (strata/average.py:201-205). -/
def translated (fl : ℚ → ℚ) (sum : List ℚ → ℚ) (x : List ℚ) (centre : Option ℚ) : Except Err (Option (List ℚ)) := do
  let o ← npMin x
  match centre with
  | none => .error .typeError
  | some c => .ok ((spacingOf fl sum x).map fun h => x.map fun v => place fl o h (column fl o h v - column fl o h c))

/-- The number of columns in the information, `int((xmax - xmin) / spacing) + 1` (strata/average.py:230). -/
def numColumns (fl : ℚ → ℚ) (xmin xmax h : ℚ) : ℕ := (Flow.pyInt (fl (fl (xmax - xmin) / h)) + 1).toNat

/-- The new information (strata/average.py:226-239). -/
def recentredInfo (fl : ℚ → ℚ) (sum : List ℚ → ℚ) (xmin xmax : ℚ) (h : Option ℚ) (last : Record) : Except Err DInfo := do
  let ys ← key last "Y"
  let ymin ← npMin ys
  match h with
  | none => .error .valueError
  | some h =>
    let nx := numColumns fl xmin xmax h
    let num := ((col? last "X").getD []).length
    .ok ⟨(nx, num / nx), (some h, spacingOf fl sum ys), some (xmin, ymin), num⟩

/-- `recenter_maps` (strata/average.py:181-241). -/
def recenterMaps (fl : ℚ → ℚ) (sum : List ℚ → ℚ) (maps : List Record) (centres : List (Option ℚ)) : Except Err (List Record × DInfo) := do
  if maps.length ≠ centres.length then .error .indexError
  else do
    let n ← rowLength maps
    let rows ← (maps.zip centres).mapM fun p => do
      let x ← key p.1 "X"
      let row ← translated fl sum x p.2
      if x.length = n then .ok row else .error .valueError
    match rows.mapM id with
    | none => .error .valueError
    | some rows => do
      let xmin ← npMax (← rows.mapM npMin)
      let xmax ← npMin (← rows.mapM npMax)
      let out ← (rows.zip maps).mapM fun p => subset xmin xmax p.1 p.2
      let h := ((maps.getLast?.bind fun d => col? d "X").map (spacingOf fl sum)).getD none
      let info ← recentredInfo fl sum xmin xmax h (out.getLastD [])
      .ok (out, info)

/-- The x positions of a gmx_flow file with the origin and spacing of its header (strata/dataformats/gmx_flow_version_1/read.py:25). -/
def gmxColumn (fl : ℚ → ℚ) (x0 dx : ℚ) (i : ℕ) : ℚ := fl (x0 + fl (dx * ((i : ℚ) + 1 / 2)))

/-! ## droplets/average.py -/

/-- The number of bins of the combined grid along an axis (droplets/average.py:263-264). -/
def numBins (fl : ℚ → ℚ) (lo hi d : ℚ) : ℤ := pyRound (fl (fl (hi - lo) / d)) + 1

/-- The first column or row of a map in the combined grid (droplets/average.py:214-215). -/
def firstBin (fl : ℚ → ℚ) (grid lo d : ℚ) : ℤ := max (pyRound (fl (-fl (grid - lo) / d))) 0

/-! ## strata/interface/collect.py -/

/-- `get_yindex_data` (strata/interface/collect.py:139-154). -/
def yindexData (fl : ℚ → ℚ) (ys : List ℚ) : Except Err InterfaceFiles.YIndex :=
  match npUnique (npDiff fl ys) with
  | [] => .error .indexError
  | dy :: _ => do .ok ⟨← npMin ys, ← npMax ys, dy, ys.length⟩

/-- `get_yindex_for_value` (strata/interface/collect.py:156-164). -/
def yindexOf (fl : ℚ → ℚ) (y : ℚ) (d : InterfaceFiles.YIndex) : ℕ :=
  (Flow.pyInt (fl (fl (min (max y d.ymin) d.ymax - d.ymin) / d.dy))).toNat

/-- `transfer_values` (strata/interface/collect.py:166-222). -/
def transferValues (fl : ℚ → ℚ) {α : Type} (old : Option (List α × InterfaceFiles.YIndex)) (new : InterfaceFiles.YIndex) : Except Err (List (Option α)) :=
  match old with
  | none => .ok (List.replicate new.num none)
  | some (xs, d) =>
    if isClose d.ymin new.ymin ∧ isClose d.ymax new.ymax ∧ isClose d.dy new.dy ∧ d.num = new.num then .ok (xs.map some)
    else if ¬ isClose d.dy new.dy then .error .valueError
    else InterfaceFiles.sliceAssign new.num (yindexOf fl d.ymin new) (yindexOf fl d.ymax new)
      ((xs.take (yindexOf fl new.ymax d + 1)).drop (yindexOf fl new.ymin d))

end Strata.FloatGrid
