import Verif.Model.Average
import Verif.Model.FloatAverage
/-!
# Averages of flow maps in floating point

`average_data` of droplets/average.py (Model/Average.lean) with every arithmetic result rounded.  The rounding `fl` and the order of additions `sum` are
parameters (see Model/FloatAverage.lean); no overflow or underflow.
-/
namespace Strata.FloatMaps
open Strata Strata.Flow Strata.Average

/-- `a / b` followed by `np.nan_to_num` (droplets/average.py:157): 0/0 becomes 0, otherwise division by zero gives the largest floating point number with
the sign of `a` (`huge`). -/
def divNan (fl : ℚ → ℚ) (huge a b : ℚ) : ℚ :=
  if b = 0 then (if a = 0 then 0 else if 0 < a then huge else -huge) else fl (a / b)

/-- Column sums over the records, `data.sum(axis=0)` (droplets/average.py:157). -/
def colSum (sum : List ℚ → ℚ) (n : ℕ) (cols : List (List ℚ)) : List ℚ :=
  (List.range n).map fun t => sum (cols.map fun c => c.getD t 0)

/-- `calc_arithmetic_mean` (droplets/average.py:138-143). -/
def arithmeticMean (fl : ℚ → ℚ) (sum : List ℚ → ℚ) (l : Label) (n : ℕ) (ds : List Record) : Except Err (List ℚ) := do
  let cols ← ds.mapM fun d => do Flow.assign n (← field d l)
  .ok ((colSum sum n cols).map fun s => fl (s / (ds.length : ℚ)))

/-- `calc_weighted_mean` (droplets/average.py:145-157); any `ValueError` becomes `KeyError`.  The total weight is the number of maps times the mean of the
weights already computed (:155). -/
def weightedMean (fl : ℚ → ℚ) (sum : List ℚ → ℚ) (huge : ℚ) (l w : Label) (avg : Record) (n : ℕ) (ds : List Record) : Except Err (List ℚ) :=
  let cols := do
    let _ ← field avg l
    ds.mapM fun d => do Flow.assign n (List.zipWith (fun x y => fl (x * y)) (← field d l) (← field d w))
  match cols with
  | .error .valueError => .error .keyError
  | .error e => .error e
  | .ok cols => do
    let aw ← field avg w
    .ok (List.zipWith (fun s a => divNan fl huge s (fl ((ds.length : ℚ) * a))) (colSum sum n cols) aw)

/-- `average_data` (droplets/average.py:100-174). -/
def averageData (fl : ℚ → ℚ) (sum : List ℚ → ℚ) (huge : ℚ) (ds : List Record) (weights : List (Label × Label)) (coords : Label × Label := ("X", "Y")) :
    Except Err Record :=
  match ds with
  | [] => .error .indexError
  | first :: _ => do
    let weighted := weights.map Prod.fst
    let avg ← first.mapM fun lc =>
      if lc.1 = coords.1 ∨ lc.1 = coords.2 ∨ lc.1 ∈ weighted then .ok lc
      else do .ok (lc.1, ← arithmeticMean fl sum lc.1 (size first) ds)
    weights.foldlM (fun avg lw => do
      .ok (setCol avg lw.1 (← weightedMean fl sum huge lw.1 lw.2 avg (size first) ds))) avg

end Strata.FloatMaps
