import Verif.Model.ContactLine
/-!
# Model of the combination of contact line edges (`combine_flow_data`, strata/contact_line_analysis.py)
-/
namespace Strata.ContactLine
open Strata Strata.Flow Strata.Average

/-- The value of a field in a bin (strata/contact_line_analysis.py:375-398). -/
def cell (r : Record) (l : Label) (t : ℕ) : ℚ := ((col? r l).getD []).getD t 0

/-- The weighted fields and their weights (strata/contact_line_analysis.py:365). -/
def edgeWeights : List (Label × Label) := [("U", "M"), ("V", "M"), ("T", "N")]

/-- The merged value of a field of a bin (strata/contact_line_analysis.py:376-398); `w` are the weights of the left and right bin if the field is weighted,
`g` is the value of the grid. -/
def mergeValue (w : Option (ℚ × ℚ)) (g lv rv : ℚ) : ℚ :=
  if lv ≠ 0 ∧ rv ≠ 0 then
    match w with
    | some (lw, rw) => if lw + rw ≠ 0 then (lw * lv + rw * rv) / (lw + rw) else g
    | none => 1 / 2 * (lv + rv)
  else if lv ≠ 0 then lv
  else if rv ≠ 0 then rv
  else g

/-- The access to the weighted field `p.1` and its weight `p.2`, the latter only if both bins have a value somewhere (strata/contact_line_analysis.py:376-384). -/
def checkWeight (l r : Record) (p : Label × Label) : Except Err Unit := do
  let lc ← field l p.1
  let rc ← field r p.1
  if (List.zipWith (fun a b : ℚ => decide (a ≠ 0 ∧ b ≠ 0)) lc rc).any id then do
    let _ ← field l p.2
    let _ ← field r p.2
    .ok ()
  else .ok ()

/-- The loop of `merge_data` over the bins (strata/contact_line_analysis.py:370-398). -/
def mergeData (g l r : Record) : Except Err Record := do
  edgeWeights.forM (checkWeight l r)
  .ok (g.map fun c => (c.1, (List.range c.2.length).map fun t : ℕ =>
    mergeValue ((edgeWeights.lookup c.1).map fun w => (cell l w t, cell r w t)) (c.2.getD t 0) (cell l c.1 t) (cell r c.1 t)))

/-- `combine_flow_data` (strata/contact_line_analysis.py:360-426).  The rows of the grid are sorted already, sorting them (line 405) changes nothing. -/
def combineFlow (left right : Flow) (spacing : ℚ × ℚ) : Except Err Flow := do
  let g ← getCombinedGrid [left.data, right.data] spacing
  let l ← transferData g left.data left.info.shape spacing
  let r ← transferData g right.data right.info.shape spacing
  let m ← mergeData g.data l r
  let m ← subCol m "X" (1 / 2 * spacing.1)
  let m ← subCol m "Y" (1 / 2 * spacing.2)
  mk (asArgs m) [("spacing", pairVal (some spacing)), ("shape", pairVal (some (g.nx, g.ny)))]

end Strata.ContactLine
