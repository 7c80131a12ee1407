import Verif.Model.SimpleAverage
/-!
# Model of `strata/dataformats/simple/average.py` in floating point

The functions of Model/SimpleAverage.lean with every arithmetic result rounded.  The rounding `fl` and the order of additions `sum` are parameters;
`roundBits 53` is double precision.  Simplifications: no overflow or underflow (the exponent is not bounded); the comparison of
coordinates is exact.
-/
namespace Strata.FloatAverage
open Strata Strata.Flow Strata.SimpleAverage

/-- The nearest number with `p` binary digits, ties to even; exponents are not bounded (the arithmetic of
strata/dataformats/simple/average.py:46-57). -/
def roundBits (p : ℕ) (x : ℚ) : ℚ :=
  if x = 0 then 0
  else (Average.pyRound (x / 2 ^ (Bytes.log2Rat |x| - p + 1)) : ℚ) * 2 ^ (Bytes.log2Rat |x| - p + 1)

/-- Adding from the first to the last (one order in which `np.sum` may add, strata/dataformats/simple/average.py:46). -/
def inOrder (fl : ℚ → ℚ) : List ℚ → ℚ
  | [] => 0
  | x :: xs => xs.foldl (fun s y => fl (s + y)) x

/-- Adding the sums of both halves (the order of `np.sum` of a contiguous array, strata/dataformats/simple/average.py:138). -/
def pairwise (fl : ℚ → ℚ) : ℕ → List ℚ → ℚ
  | 0, xs => inOrder fl xs
  | depth + 1, xs =>
    if xs.length < 2 then inOrder fl xs
    else fl (pairwise fl depth (xs.take (xs.length / 2)) + pairwise fl depth (xs.drop (xs.length / 2)))

/-- `np.sum(arrays, 0)` (strata/dataformats/simple/average.py:46, :52). -/
def sumArrays (sum : List ℚ → ℚ) : List (List ℚ) → Except Err (List ℚ)
  | [] => .error .valueError
  | c :: cs =>
    if cs.all fun c' => c'.length == c.length then
      .ok ((List.range c.length).map fun t => sum ((c :: cs).map fun c' => c'.getD t 0))
    else .error .valueError

/-- `np.nan_to_num(s / w)` (strata/dataformats/simple/average.py:57-59). -/
def quotient (fl : ℚ → ℚ) (s w : ℚ) : ℚ :=
  if w ≠ 0 then fl (s / w) else if s = 0 then 0 else if 0 < s then maxFloat else -maxFloat

/-- `get_avg` (strata/dataformats/simple/average.py:48-49). -/
def getAvg (fl : ℚ → ℚ) (sum : List ℚ → ℚ) (ds : List Record) (l : Label) : Except Err (List ℚ) := do
  let s ← sumArrays sum (← ds.mapM fun d => key d l)
  .ok (s.map fun x => fl (x / (ds.length : ℚ)))

/-- `d[field] * d[weight]` (strata/dataformats/simple/average.py:52). -/
def weighted (fl : ℚ → ℚ) (l w : Label) (d : Record) : Except Err (List ℚ) := do
  let a ← key d l
  let b ← key d w
  if a.length = b.length then .ok (List.zipWith (fun x y => fl (x * y)) a b) else .error .valueError

/-- `get_weighted_avg` (strata/dataformats/simple/average.py:44-46, :51-59). -/
def getWeightedAvg (fl : ℚ → ℚ) (sum : List ℚ → ℚ) (ds : List Record) (l w : Label) : Except Err (List ℚ) := do
  let s ← sumArrays sum (← ds.mapM (weighted fl l w))
  let ws ← sumArrays sum (← ds.mapM fun d => key d w)
  if s.length = ws.length then .ok (List.zipWith (quotient fl) s ws) else .error .valueError

/-- `average_data` (strata/dataformats/simple/average.py:4-77). -/
def averageData (fl : ℚ → ℚ) (sum : List ℚ → ℚ) (ds : List Record) (atol : ℚ := 1 / 1000) (rtol : ℚ := 1 / 100000) : Except Err Record :=
  match ds with
  | [] => .ok []
  | d0 :: rest => do
    let x ← key d0 "X"
    let y ← key d0 "Y"
    let _ ← rest.mapM fun d => do
      checkCoord atol rtol d0 d "X"
      checkCoord atol rtol d0 d "Y"
    let _ ← sumArrays sum (← ds.mapM fun d => key d "N")
    let _ ← sumArrays sum (← ds.mapM fun d => key d "M")
    let m ← getAvg fl sum ds "M"
    let n ← getAvg fl sum ds "N"
    let u ← getWeightedAvg fl sum ds "U" "M"
    let v ← getWeightedAvg fl sum ds "V" "M"
    let t ← getWeightedAvg fl sum ds "T" "N"
    .ok [("X", x), ("Y", y), ("M", m), ("N", n), ("U", u), ("V", v), ("T", t)]

/-! ## Combining bins -/

/-- `np.average(a, weights=w)`, 0 if the weights sum to 0 (strata/dataformats/simple/average.py:140-144). -/
def average (fl : ℚ → ℚ) (sum : List ℚ → ℚ) (a w : List ℚ) : ℚ :=
  if sum w = 0 then 0 else fl (sum (List.zipWith (fun x y => fl (x * y)) a w) / sum w)

/-- One combined field (strata/dataformats/simple/average.py:126-146). -/
def combineField (fl : ℚ → ℚ) (sum : List ℚ → ℚ) (d : Record) (shape : ℕ × ℕ) (nx ny : ℕ) (l : Label) (w : Option Label) : Except Err (List ℚ) := do
  let ds ← reshaped d l shape
  let sh := (shape.1 / nx, shape.2 / ny)
  match w with
  | none => .ok ((List.range (sh.1 * sh.2)).map fun t => sum (slice nx ny (t / sh.2) (t % sh.2) ds))
  | some w => do
    let ws ← reshaped d w shape
    .ok ((List.range (sh.1 * sh.2)).map fun t =>
      average fl sum (slice nx ny (t / sh.2) (t % sh.2) ds) (slice nx ny (t / sh.2) (t % sh.2) ws))

end Strata.FloatAverage
