import Verif.Model.Interface
import Verif.Model.Average
/-!
# Model of `droplets/contact_line.py` and of parts of `strata/contact_line_analysis.py`

Extraction works on the rows of the map (`Interface.System`), the coordinate adjustments on record arrays.
-/
namespace Strata.ContactLine
open Strata Strata.Flow Strata.Average Strata.Interface

/-! ## `get_contact_line_cells` -/

/-- `get_interface_of_height` (droplets/contact_line.py:47-70): the yielded pairs of row numbers, until the first whose left bin
is more than `height` above that of the first pair. -/
def interfaceOfHeight (s : System) (pts : List (ℕ × ℕ)) (height : ℚ) : List (ℕ × ℕ) :=
  match pts with
  | [] => []
  | p :: rest => p :: rest.takeWhile fun q => decide ((row s q.1).y ≤ (row s p.1).y + height)

/-- The position among the interface bins at which the box is placed (droplets/contact_line.py:79-84). -/
def boxPosition (s : System) (inds : List ℕ) (eh : ℚ) : ℕ :=
  (inds.tail.takeWhile fun j => decide ((row s j).y ≤ (row s (inds.headD 0)).y + eh)).length

/-- `get_cells_of_edge` (droplets/contact_line.py:72-101): the row numbers of the cells, none without interface.
`xs.min()` and `xs.max()` of the interface bins are folded. -/
def cellsOfEdge (s : System) (inds : List ℕ) (left : Bool) (dx eh : ℚ) : List ℕ :=
  match inds with
  | [] => []
  | a :: rest =>
    let i := boxPosition s (a :: rest) eh
    let xref := (row s ((a :: rest).getD i 0)).x
    let xinner := if left then xref + dx else xref - dx
    let xmin := min (rest.foldl (fun m j => min m (row s j).x) (row s a).x) xinner
    let xmax := max (rest.foldl (fun m j => max m (row s j).x) (row s a).x) xinner
    let ymin := (row s a).y
    let ymax := (row s ((a :: rest).getLast (List.cons_ne_nil _ _))).y
    (List.range s.length).filter fun t =>
      decide (xmin ≤ (row s t).x ∧ (row s t).x ≤ xmax ∧ ymin ≤ (row s t).y ∧ (row s t).y ≤ ymax)

/-- `get_contact_line_cells` (droplets/contact_line.py:6-115): the row numbers of the left and of the right cells. -/
def contactLineCells (s : System) (box : Option (ℚ × ℚ)) (o : Opts) (area : ℚ × ℚ := (0, 0)) (eh : ℚ := 0) :
    Except Err (List ℕ × List ℕ) := do
  let pts ← getInterface s box o
  let used := interfaceOfHeight s pts area.2
  .ok (cellsOfEdge s (used.map Prod.fst) true area.1 eh, cellsOfEdge s (used.map Prod.snd) false area.1 eh)

/-! ## `adjust_cell_coordinates` -/

/-- `get_x0` (droplets/contact_line.py:138-148); the extremes of `np.unique(xs)` are those of `xs`. -/
def getX0 (cells : Record) (direction : String) (xl : Label) : Except Err ℚ := do
  let xs ← field cells xl
  if direction = "right" then npMin xs
  else if direction = "left" then npMax xs
  else .error .keyError

/-- `cells[label] -= v` for an existing label (droplets/contact_line.py:152-153). -/
def subCol (r : Record) (l : Label) (v : ℚ) : Except Err Record := do
  let c ← field r l
  .ok (setCol r l (c.map (· - v)))

/-- The computation of the adjustment in the `try` block (droplets/contact_line.py:157-160). -/
def adjustmentOf (cells : Record) (direction : String) (coords : Label × Label) : Except Err (ℚ × ℚ) := do
  let x0 ← getX0 cells direction coords.1
  let ys ← field cells coords.2
  let y0 ← npMin ys
  .ok (x0, y0)

/-- The `except` clause: only `ValueError` is caught (droplets/contact_line.py:161-164). -/
def catchValueError : Except Err (ℚ × ℚ) → Except Err (ℚ × ℚ)
  | .ok a => .ok a
  | .error .valueError => .ok (0, 0)
  | .error e => .error e

/-- `adjust_cell_coordinates` (droplets/contact_line.py:118-166): the adjustment and the adjusted cells. -/
def adjustCells (cells : Record) (direction : String) (coords : Label × Label := ("X", "Y")) :
    Except Err ((ℚ × ℚ) × Record) := do
  let adj ← catchValueError (adjustmentOf cells direction coords)
  let r ← subCol cells coords.1 adj.1
  let r ← subCol r coords.2 adj.2
  .ok (adj, r)

/-! ## `strata/contact_line_analysis.py` -/

/-- `fuse_edges` (strata/contact_line_analysis.py:76-87): the data of the left and the right edge afterwards. -/
def fuseEdges (left right : Record) (dx : ℚ) : Except Err (Record × Record) := do
  let lmax ← npMax (← field left "X")
  let rmin ← npMin (← field right "X")
  let l ← subCol left "X" (lmax + 1 / 2 * dx)
  let r ← subCol right "X" (rmin - 1 / 2 * dx)
  .ok (l, r)

/-- `get_coord_on_grid` (strata/contact_line_analysis.py:257-260). -/
def coordOnGrid (x dx : ℚ) : ℚ := ((⌊x / dx⌋ : ℚ) + 1 / 2) * dx

/-- `adjust_coordinates` (strata/contact_line_analysis.py:242-255) for the two edges: their data afterwards. -/
def adjustCoordinates (left right : Record) (xadj : ℚ × ℚ) (dx yadj : ℚ) (recenter : Bool) : Except Err (Record × Record) := do
  let xdiff := 1 / 2 * (xadj.2 - xadj.1)
  let xa := if recenter then (-xdiff, xdiff) else xadj
  let l ← subCol left "X" (-coordOnGrid xa.1 dx)
  let l ← subCol l "Y" (-yadj)
  let r ← subCol right "X" (-coordOnGrid xa.2 dx)
  let r ← subCol r "Y" (-yadj)
  .ok (l, r)

/-- The loop of `get_grouped_data` (strata/contact_line_analysis.py:333-357) over the data of the files; the second
argument is the list being filled (`left` and `right` have the same length).  All yielded groups. -/
def groupLoop {α : Type} (average : ℤ) (rolling : Bool) : List α → List α → List (List α)
  | _, [] => []
  | acc, a :: rest =>
    if ((acc ++ [a]).length : ℤ) = average then
      (acc ++ [a]) :: groupLoop average rolling (if rolling then (acc ++ [a]).drop 1 else []) rest
    else groupLoop average rolling (acc ++ [a]) rest

/-- The time given to averaged map number `i` (strata/contact_line_analysis.py:207-210). -/
def edgeTime (average : ℤ) (rolling : Bool) (dt : ℚ) (i : ℕ) : ℚ :=
  if rolling then ((⌊(1 / 2 : ℚ) * average⌋ : ℚ) + i) * dt else ((⌊(1 / 2 : ℚ) * average⌋ : ℚ) + i * average) * dt

/-- `get_cut_shape` (strata/contact_line_analysis.py:436-447): the loop on the y values after the first `nx` ones. -/
def cutLoop (y0 dx dy : ℚ) : ℕ → List ℚ → Except Err ℕ
  | _, [] => .error .indexError
  | nx, y :: rest => if y0 - 1 / 2 * dy ≤ y ∧ y < y0 + 1 / 2 * dx then cutLoop y0 dx dy (nx + 1) rest else .ok nx

/-- `get_cut_shape` (strata/contact_line_analysis.py:436-447) of sorted data with the given y values. -/
def cutShape (ys : List ℚ) (dx dy : ℚ) : Except Err (ℕ × ℕ) :=
  match ys with
  | [] => .error .indexError
  | y0 :: rest => do
    let nx ← cutLoop y0 dx dy 1 rest
    .ok (nx, ys.length / nx)

/-- The sampling of one label for one pair of edges in `sample_contact_line_edges`
(strata/contact_line_analysis.py:178-205): `value` is the sampled value, or the exception raised while sampling.
`std` is not defined, and every exception ends the program. -/
def appendSample (_value : Except Err ℚ) : Except Err Unit :=
  match _value >>= fun _ => (Except.error Err.nameError : Except Err ℚ) with
  | .ok _ => .ok ()
  | .error _ => .error .systemExit

/-- `get_averaged_contact_line_edges` (strata/contact_line_analysis.py:236-326) as far as it is common to both users: `edges` are the
pairs of averaged edges.  `progress` is only assigned if not quiet (line 279) but always used (line 300). -/
def averagedEdges {γ : Type} (quiet : Bool) (edges : List γ) : Except Err (List γ) :=
  if quiet then .error .unboundLocalError else .ok edges

/-- `sample_contact_line_edges` (strata/contact_line_analysis.py:158-233): `value e l` is the result of sampling label `l` for the
pair of edges `e`.  The times and, per map, nothing else: no sample can be appended. -/
def sampleEdges {γ : Type} (labels : List Label) (value : γ → Label → Except Err ℚ) (average : ℤ) (rolling : Bool) (dt : ℚ) (quiet : Bool) (edges : List γ) :
    Except Err (List ℚ) := do
  let edges ← averagedEdges quiet edges
  edges.zipIdx.mapM fun e => do
    let _ ← labels.mapM fun l => appendSample (value e.1 l)
    .ok (edgeTime average rolling dt e.2)

/-- The call of `write` without information in `extract_contact_line_bins` (strata/contact_line_analysis.py:72): the default
format's writer requires it (strata/dataformats/gmx_flow_version_1/write.py:9). -/
def writeWithoutInfo {γ : Type} (_data : γ) : Except Err γ := .error .typeError

/-- `extract_contact_line_bins` (strata/contact_line_analysis.py:62-72): everything that is written; `combine` is the processing of
the edges of one group. -/
def extractBins {γ δ : Type} (combine : γ → Except Err δ) (quiet : Bool) (edges : List γ) : Except Err (List δ) := do
  let edges ← averagedEdges quiet edges
  edges.mapM fun e => do writeWithoutInfo (← combine e)

end Strata.ContactLine
