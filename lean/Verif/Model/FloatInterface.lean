import Verif.Model.Interface
import Verif.Model.FloatAverage
/-!
# The neighbour search and the search from outside in, in floating point

The functions of Model/Interface.lean with every arithmetic result rounded by `fl` (see Model/FloatAverage.lean; `roundBits 53` is double precision).  Comparisons are exact.
Simplification: a square is a rounded product; no overflow or underflow.
-/
namespace Strata.FloatInterface
open Strata Strata.Interface

/-- A square (droplets/interface.py:433, :439-440). -/
def square (fl : ℚ → ℚ) (x : ℚ) : ℚ := fl (x * x)

/-- `(xs - x)**2 + (ys - y)**2` (droplets/interface.py:440). -/
def distance2 (fl : ℚ → ℚ) (c b : Cell) : ℚ := fl (square fl (fl (b.x - c.x)) + square fl (fl (b.y - c.y)))

/-- `_get_indices_in_radius` (droplets/interface.py:414-442). -/
def indicesInRadius (fl : ℚ → ℚ) (i : ℕ) (s : System) (radius : ℚ) : List ℕ :=
  let c := row s i
  let ixs := (List.range s.length).filter fun j => decide (square fl (fl ((row s j).x - c.x)) ≤ square fl radius)
  let indices := ixs.filter fun j => decide (distance2 fl c (row s j) ≤ square fl radius)
  indices.filter (· ≠ i)

/-- `_cell_is_droplet` (droplets/interface.py:368-411). -/
def cellIsDroplet (fl : ℚ → ℚ) (i : ℕ) (s : System) (radius cutoff : ℚ) (cutoffBins : ℤ) : Bool :=
  decide ((row s i).v ≥ cutoff) &&
  decide ((((indicesInRadius fl i s radius).filter fun j => decide ((row s j).v ≥ cutoff)).length : ℤ) ≥ cutoffBins)

/-- `get_cutoff` (droplets/interface.py:163-171). -/
def getCutoff (fl : ℚ → ℚ) (cutoff : Option ℚ) (s : System) : Except Err ℚ :=
  match cutoff with
  | some c => .ok c
  | none => do
    let vmin ← npMin (s.map (·.v))
    let vmax ← npMax (s.map (·.v))
    if vmin ≠ vmax then .ok (fl ((1 / 2) * fl (vmin + vmax))) else .error .assertionError

/-- `get_radius` (droplets/interface.py:180-187), see `Interface.getRadius`. -/
def getRadius (fl : ℚ → ℚ) (radius : Option ℚ) (s : System) : Except Err ℚ :=
  match radius with
  | some r => .ok r
  | none => npMin ((npDiff (npUnique (s.map (·.x)))).map fl)

/-- `traverse_layer` (droplets/interface.py:250-258). -/
def traverseLayer (fl : ℚ → ℚ) (layer data : System) (radius cutoff : ℚ) (bins : ℤ) : Option ℕ :=
  (layer.map fun c => indexOf c data).find? fun i => cellIsDroplet fl i data radius cutoff bins

/-- Default search of `get_interface` (droplets/interface.py:349-365). -/
def outsideIn (fl : ℚ → ℚ) (s : System) (radius cutoff : ℚ) (bins : ℤ) (ylims : Option ℚ × Option ℚ) : List (ℕ × ℕ) :=
  let indices := (List.range s.length).filter fun i => decide ((row s i).v ≥ cutoff)
  let data := indices.map (row s)
  (yValues (data.map (·.y)) ylims.1 ylims.2).filterMap fun y =>
    let sorted := sortLayer (data.filter fun c => c.y = y)
    match traverseLayer fl sorted data radius cutoff bins with
    | none => none
    | some l =>
      match traverseLayer fl sorted.reverse data radius cutoff bins with
      | none => none
      | some r => some (indices.getD l 0, indices.getD r 0)

/-- `get_interface` with the search from outside in (droplets/interface.py:98-365). -/
def getInterface (fl : ℚ → ℚ) (s : System) (o : Opts) : Except Err (List (ℕ × ℕ)) :=
  match getCutoff fl o.cutoff s with
  | .error .assertionError => .ok []
  | .error e => .error e
  | .ok cutoff => do
    let radius ← getRadius fl o.radius s
    .ok (outsideIn fl s radius cutoff o.bins o.ylims)

end Strata.FloatInterface
