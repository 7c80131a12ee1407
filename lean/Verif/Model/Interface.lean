import Verif.Model.Flow
import Verif.Model.Numeric
import Mathlib.Analysis.SpecialFunctions.Complex.Arg
/-!
# Model of `droplets/interface.py`

A record array is looked at row by row: `Cell` has the two coordinates, the value of the chosen label and
the tuple of all fields except x, in dtype order (so two rows are equal in Numpy exactly if the cells are,
and `np.sort(layer, order=xlabel)` orders by x and then by `fields`).
-/
namespace Strata.Interface
open Strata

/-- One row of the record array. -/
structure Cell where
  x : ℚ
  y : ℚ
  v : ℚ
  fields : List ℚ := []
  deriving DecidableEq, Repr

instance : Inhabited Cell := ⟨⟨0, 0, 0, []⟩⟩

/-- A record array. -/
abbrev System := List Cell

/-- Row `i`. -/
def row (s : System) (i : ℕ) : Cell := s.getD i default

/-- `_get_indices_in_radius` (droplets/interface.py:414-442). -/
def indicesInRadius (i : ℕ) (s : System) (radius : ℚ) : List ℕ :=
  let c := row s i
  let ixs := (List.range s.length).filter fun j => decide (((row s j).x - c.x) ^ 2 ≤ radius ^ 2)
  let indices := ixs.filter fun j =>
    decide (((row s j).x - c.x) ^ 2 + ((row s j).y - c.y) ^ 2 ≤ radius ^ 2)
  indices.filter (· ≠ i)

/-- `_cell_is_droplet` (droplets/interface.py:368-411). -/
def cellIsDroplet (i : ℕ) (s : System) (radius cutoff : ℚ) (cutoffBins : ℤ) : Bool :=
  decide ((row s i).v ≥ cutoff) &&
  decide ((((indicesInRadius i s radius).filter fun j => decide ((row s j).v ≥ cutoff)).length : ℤ) ≥ cutoffBins)

/-- `get_cutoff` (droplets/interface.py:163-171). -/
def getCutoff (cutoff : Option ℚ) (s : System) : Except Err ℚ :=
  match cutoff with
  | some c => .ok c
  | none => do
    let vmin ← npMin (s.map (·.v))
    let vmax ← npMax (s.map (·.v))
    if vmin ≠ vmax then .ok ((1 / 2) * (vmin + vmax)) else .error .assertionError

/-- `get_yvalues` (droplets/interface.py:173-178). -/
def yValues (Y : List ℚ) (ymin ymax : Option ℚ) : List ℚ :=
  (npUnique Y).filter fun y => Flow.inLims ymin ymax y

/-- `get_radius` (droplets/interface.py:180-187).  `np.min(map(...))` of an iterator is the iterator
itself (a 0-d object array), so `next` returns the first element: the smallest difference in x. -/
def getRadius (radius : Option ℚ) (s : System) : Except Err ℚ :=
  match radius with
  | some r => .ok r
  | none => npMin (npDiff (npUnique (s.map (·.x))))

/-- `np.sort(layer, order=xlabel)` (droplets/interface.py:319, :359). -/
def sortLayer (layer : System) : System :=
  layer.insertionSort fun a b => Flow.lexLE (a.x :: a.fields) (b.x :: b.fields)

/-- `np.where(data == cell)[0][0]` (droplets/interface.py:195, :252) for a cell of `data`. -/
def indexOf (c : Cell) (data : System) : ℕ := data.idxOf c

/-- `traverse_layer` (droplets/interface.py:250-258): index of the first liquid cell. -/
def traverseLayer (layer data : System) (radius cutoff : ℚ) (bins : ℤ) : Option ℕ :=
  (layer.map fun c => indexOf c data).find? fun i => cellIsDroplet i data radius cutoff bins

/-- Default search of `get_interface` (droplets/interface.py:349-365): all yielded index pairs in order.
The right search cannot fail when the left one succeeded. -/
def outsideIn (s : System) (radius cutoff : ℚ) (bins : ℤ) (ylims : Option ℚ × Option ℚ) : List (ℕ × ℕ) :=
  let indices := (List.range s.length).filter fun i => decide ((row s i).v ≥ cutoff)
  let data := indices.map (row s)
  (yValues (data.map (·.y)) ylims.1 ylims.2).filterMap fun y =>
    let sorted := sortLayer (data.filter fun c => c.y = y)
    match traverseLayer sorted data radius cutoff bins with
    | none => none
    | some l =>
      match traverseLayer sorted.reverse data radius cutoff bins with
      | none => none
      | some r => some (indices.getD l 0, indices.getD r 0)

/-- State of the loop over the doubled layer (droplets/interface.py:205-230). -/
structure Scan where
  indexBest : ℕ
  lenBest : ℕ
  ibegin : Option ℕ
  lenCurrent : ℕ
  deriving DecidableEq, Repr

/-- Loop body (droplets/interface.py:211-230). -/
def Scan.step (st : Scan) (i : ℕ) (filled : Bool) : Scan :=
  if filled then
    match st.ibegin with
    | none => { st with ibegin := some i, lenCurrent := 1 }
    | some _ => { st with lenCurrent := st.lenCurrent + 1 }
  else
    match st.ibegin with
    | some b =>
      if st.lenCurrent > st.lenBest then ⟨b, st.lenCurrent, none, 0⟩
      else { st with ibegin := none, lenCurrent := 0 }
    | none => { st with ibegin := none, lenCurrent := 0 }

/-- The loop. -/
def Scan.run : Scan → ℕ → List Bool → Scan
  | st, _, [] => st
  | st, i, b :: rest => Scan.run (st.step i b) (i + 1) rest

/-- `find_interface_edges_in_layer` after the cells have been classified
(droplets/interface.py:201-248). -/
def findEdges (filled : List Bool) : Option (ℕ × ℕ) :=
  let st := Scan.run ⟨0, 0, none, 0⟩ 0 (filled ++ filled)
  if st.lenCurrent > 0 ∧ st.lenBest = 0 then
    let e := 0 % filled.length
    some (e, (e + st.lenCurrent - 1) % filled.length)
  else if st.lenBest = 0 then none
  else
    let e := st.indexBest % filled.length
    some (e, (e + st.lenBest - 1) % filled.length)

/-- The periodic copies (droplets/interface.py:294-302). -/
def pbcCopies (s : System) (radius box : ℚ) : System :=
  ((s.filter fun c => c.x ≤ radius).map fun c => { c with x := c.x + box }) ++
  ((s.filter fun c => c.x ≥ box - radius).map fun c => { c with x := c.x - box })

/-- The cells in reach of height `y`: `yslice_data` (droplets/interface.py:321-337). -/
def ySlice (s : System) (radius box y : ℚ) : System :=
  (s.filter fun c => decide (c.y ≤ y + radius ∧ c.y ≥ y - radius)) ++
  ((pbcCopies s radius box).filter fun c => decide (c.y ≤ y + radius ∧ c.y ≥ y - radius))

/-- Which cells of a layer are liquid (droplets/interface.py:192-199). -/
def filledCells (sorted data : System) (radius cutoff : ℚ) (bins : ℤ) : List Bool :=
  sorted.map fun c => cellIsDroplet (indexOf c data) data radius cutoff bins

/-- The `search_longest_connected` branch of `get_interface` (droplets/interface.py:275-348).  With a
negative radius the slice is empty and `np.where(...)[0][0]` raises `IndexError`. -/
def longestConnected (s : System) (radius cutoff : ℚ) (bins : ℤ) (ylims : Option ℚ × Option ℚ) (box : ℚ) :
    Except Err (List (ℕ × ℕ)) :=
  let ys := yValues (s.map (·.y)) ylims.1 ylims.2
  if radius < 0 ∧ ys ≠ [] then .error .indexError
  else .ok <| ys.filterMap fun y =>
    let indices := (List.range s.length).filter fun i => (row s i).y = y
    let sorted := sortLayer (indices.map (row s))
    (findEdges (filledCells sorted (ySlice s radius box y) radius cutoff bins)).map fun e =>
      (indices.getD e.1 0, indices.getD e.2 0)

/-- Keyword arguments of `get_interface` (droplets/interface.py:132-150). -/
structure Opts where
  cutoff : Option ℚ := none
  radius : Option ℚ := none
  bins : ℤ := 1
  longest : Bool := false
  ylims : Option ℚ × Option ℚ := (none, none)
  deriving DecidableEq, Repr

/-- `get_interface` (droplets/interface.py:98-365): the list of everything it yields, or the exception
raised at the first `next` (all exceptions are raised before anything is yielded).  `box` is
`flow.size()`; a homogeneous system yields nothing (droplets/interface.py:260-264). -/
def getInterface (s : System) (box : Option (ℚ × ℚ)) (o : Opts) : Except Err (List (ℕ × ℕ)) :=
  match getCutoff o.cutoff s with
  | .error .assertionError => .ok []
  | .error e => .error e
  | .ok cutoff => do
    let radius ← getRadius o.radius s
    if o.longest then
      match box with
      | none => .error .valueError
      | some b => longestConnected s radius cutoff o.bins o.ylims b.1
    else .ok (outsideIn s radius cutoff o.bins o.ylims)

/-! ## Contact angle -/

/-- `ys[np.abs(ys - floor).argmin()]` (droplets/interface.py:53-55): the first closest value. -/
def closest (floor : ℚ) : List ℚ → Except Err ℚ
  | [] => .error .valueError
  | y :: ys => .ok (ys.foldl (fun best z => if |z - floor| < |best - floor| then z else best) y)

/-- `get_floor_height` (droplets/interface.py:53-55): height of the floor layer, none without a floor. -/
def floorOf (floor : Option ℚ) (s : System) : Except Err (Option ℚ) :=
  match floor with
  | none => .ok none
  | some f => (closest f (s.map (·.y))).map some

/-- `np.degrees(np.arctan2(dy, dx))` (droplets/interface.py:67-69), exact reals. -/
noncomputable def angleDeg (dy dx : ℚ) : ℝ := Complex.arg ⟨(dx : ℝ), (dy : ℝ)⟩ * 180 / Real.pi

/-- `get_angles` (droplets/interface.py:62-69): the right difference is mirrored. -/
noncomputable def getAngles (xs xedges : ℚ × ℚ) (dy : ℚ) : ℝ × ℝ :=
  (angleDeg dy (xs.1 - xedges.1), angleDeg dy (-(xs.2 - xedges.2)))

/-- The loop over the layers above the floor (droplets/interface.py:86-95); the second argument is the
local variable `angles`, unbound at first.  Returns the pair of x positions and height difference
the angles are computed from. -/
def angleLoop (s : System) (height ymin : ℚ) : Option ((ℚ × ℚ) × ℚ) → List (ℕ × ℕ) → Except Err ((ℚ × ℚ) × ℚ)
  | some a, [] => .ok a
  | none, [] => .error .unboundLocalError
  | a, (l, r) :: rest =>
    let dy := (row s l).y - ymin
    if dy ≤ height then angleLoop s height ymin (some (((row s l).x, (row s r).x), dy)) rest
    else match a with
      | some a => .ok a
      | none => .error .unboundLocalError

/-- `get_contact_angle` (droplets/interface.py:11-95); `.ok none` is `(None, None)`.  The `ylims` keyword is
overwritten. -/
noncomputable def contactAngle (s : System) (box : Option (ℚ × ℚ)) (height : ℚ) (floor : Option ℚ) (o : Opts) :
    Except Err (Option (ℝ × ℝ)) := do
  let yfloor ← floorOf floor s
  let interface ← getInterface s box { o with ylims := (yfloor, none) }
  match interface with
  | [] => .error .stopIteration
  | (l, r) :: rest =>
    let ymin := (row s l).y
    if floor.isSome ∧ yfloor ≠ some ymin then .ok none
    else do
      let (xs, dy) ← angleLoop s height ymin none rest
      .ok (some (getAngles xs ((row s l).x, (row s r).x) dy))

end Strata.Interface
