import Verif.Model.SpreadingEdges
import Verif.Model.Driver
/-!
# The contact line `average` recentres at (strata/average.py:126-141)
-/
namespace Strata.Driver
open Strata Strata.Flow Strata.Interface

/-- `get_spreading_edges(data, 'M', cutoff_radius, **kwargs)` as `average` calls it (strata/average.py:129-141; strata/spreading/collect.py:156-211): `kwargs` are what is left of the
options, for the command `floor`, `cutoff` and `cutoff_bins` (strata/strata.py:205-213), so the search is from the outside in (droplets/interface.py:60), and the `FlowData` object has no size of the
box.  `(None, None)` if there is no interface. -/
def averageEdges (radius : ℚ) (floor : Option ℚ) (o : Interface.Opts) (f : Flow) : Except Err (Option ℚ × Option ℚ) := do
  let s ← Spreading.cells f.data "M"
  let e ← Spreading.spreadingEdges s (boxSize f) radius floor { o with longest := false }
  .ok (e.map Prod.fst, e.map Prod.snd)

/-- The options of the command `average` that concern the contact line, with their defaults (strata/strata.py:205-213). -/
structure EdgeArgs where
  floor : Option ℚ := none
  cutoff : ℚ := 0
  bins : ℤ := 1
  radius : ℚ := 1

/-- What the command passes on to `get_spreading_edges` (strata/strata.py:254-260, strata/average.py:82, 129-141). -/
def commandEdges (a : EdgeArgs) : Flow → Except Err (Option ℚ × Option ℚ) :=
  averageEdges a.radius a.floor { cutoff := some a.cutoff, bins := a.bins }

end Strata.Driver
