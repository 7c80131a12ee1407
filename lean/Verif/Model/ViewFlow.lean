import Verif.Model.ViewMap
/-!
# Model of `view_flowfields` (`strata/view_flowmap.py`): arrows of a series of maps, with their colours

Drawing itself is left out: `plot` says whether Matplotlib (and the saving of the figure) accepts the arrows.  The drawing of
stream lines is not part of this model (see `Verif.Model.View`).
-/
namespace Strata.View
open Strata Strata.Flow Strata.Average Strata.Sample

/-- The field added for a colour (strata/view_flowmap.py:53-61; `add_viscous_dissipation` :396-412).  The dissipation and the
evaporation sort the data. -/
noncomputable def colourFields (colour : Option Label) (f : Flow) : Except Err Shown :=
  if colour = some "flow" then do
    let c ← absoluteFlow f.data
    .ok ⟨f.data, [("flow", c.map some)]⟩
  else if colour = some "visc" then do
    let (g, c) ← viscousDissipation f viscosity (weight := some "M")
    newName g.data "visc"
    .ok ⟨g.data, [("visc", c.map fun v => v.map fun q : ℚ => (q : ℝ))]⟩
  else if colour = some "radial" then do
    let c ← radialColour f
    .ok ⟨f.data, [("radial", c.map some)]⟩
  else if colour = some "evaporation" then do
    let (g, c) ← evaporation f
    .ok ⟨g.data, [("evaporation", c.map fun v => v.map fun q : ℚ => (q : ℝ))]⟩
  else .ok ⟨f.data, []⟩

/-- The arrows of one figure: positions, flow and weights. -/
structure Figure where
  x : List ℚ
  y : List ℚ
  u : List ℚ
  v : List ℚ
  weights : List (Option ℝ)

/-- The weights of all bins: the values of the colour, or 1 if there is none or it is no field (strata/view_flowmap.py:198-203). -/
def weightsShown (s : Shown) (colour : Option Label) : List (Option ℝ) :=
  match colour with
  | none => List.replicate (size s.base) (some 1)
  | some c => match s.values c with | .ok w => w | .error _ => List.replicate (size s.base) (some 1)

/-- The options of the call (strata/view_flowmap.py:11-12, :43-47). -/
structure FlowOpts where
  labels : Label × Label := ("U", "V")
  coords : Label × Label := ("X", "Y")
  cutoffLabel : Option Label := some "M"
  cutoff : Option ℚ := none
  colour : Option Label := none
  xlim : Option ℚ × Option ℚ := (none, none)
  ylim : Option ℚ × Option ℚ := (none, none)

/-- `get_quiver_data` (strata/view_flowmap.py:147-205) on data with added fields.  Simplified: the fields for positions, flow and
cutoff are those of the file. -/
def arrowsOf (o : FlowOpts) (s : Shown) : Except Err Figure := do
  let r := s.base
  let xs ← field r o.coords.1
  let ys ← field r o.coords.2
  let us ← field r o.labels.1
  let vs ← field r o.labels.2
  let mx ← cutSystem xs o.xlim
  let my ← cutSystem ys o.ylim
  let mc ← cutoffMask r (o.cutoffLabel, o.cutoff)
  let ws := weightsShown s o.colour
  let inds := (List.range (size r)).filter fun t : ℕ =>
    decide (us.getD t 0 ≠ 0) && decide (vs.getD t 0 ≠ 0) && mx.getD t false && my.getD t false && mc.getD t false
  .ok ⟨pick inds xs, pick inds ys, pick inds us, pick inds vs, inds.map fun t : ℕ => ws.getD t none⟩

/-- The loop over the maps (strata/view_flowmap.py:49-79): the figures drawn, and how the call ends.  Only the calculation of the
added field can make the call fail; what cannot be drawn ends the loop. -/
noncomputable def viewFlowLoop (plot : Figure → Bool) (o : FlowOpts) : List Flow → List Figure × Except Err Unit
  | [] => ([], .ok ())
  | f :: fs =>
    match colourFields o.colour f with
    | .error e => ([], .error e)
    | .ok s =>
      match arrowsOf o s with
      | .error _ => ([], .ok ())
      | .ok a => if plot a then let r := viewFlowLoop plot o fs; (a :: r.1, r.2) else ([], .ok ())

/-- `view_flowfields` (strata/view_flowmap.py:11-79), arrows, on the maps read from the files. -/
noncomputable def viewFlowfields (plot : Figure → Bool) (o : FlowOpts) (maps : List Flow) : List Figure × Except Err Unit :=
  viewFlowLoop plot o maps

end Strata.View
