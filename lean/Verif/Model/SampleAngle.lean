import Verif.Model.Sample
import Mathlib.Analysis.SpecialFunctions.Complex.Arg
import Mathlib.Analysis.SpecialFunctions.Trigonometric.Inverse
/-!
# Model of `droplets/sample.py`: angles

Data are rationals, angles are real numbers; a NaN angle is `none`.
-/
namespace Strata.Sample
open Strata Strata.Flow Strata.Average

/-- `np.arctan2(v, u)` (droplets/sample.py:263).  Negative zeros, for which Numpy returns -π instead of π, are not
represented. -/
noncomputable def arctan2 (v u : ℚ) : ℝ := Complex.arg ⟨(u : ℝ), (v : ℝ)⟩

/-- `np.degrees` (droplets/sample.py:69, :265). -/
noncomputable def degrees (x : ℝ) : ℝ := x * 180 / Real.pi

/-- `sample_flow_angle` (droplets/sample.py:208-265): one angle per bin, or a single one if `mean` is true.  An empty weight
label is falsy. -/
noncomputable def flowAngle (f : Flow) (flows : List Label := ["U", "V"]) (mean : Bool := false) (weight : Option Label := none) :
    Except Err (List ℝ) :=
  match flows with
  | [ul, vl] => do
    let us ← field f.data ul
    let vs ← field f.data vl
    if mean then
      match weight with
      | none | some "" => .ok [degrees (arctan2 vs.sum us.sum)]
      | some w => do
        let ws ← field f.data w
        .ok [degrees (arctan2 (List.zipWith (· * ·) vs ws).sum (List.zipWith (· * ·) us ws).sum)]
    else .ok (List.zipWith (fun v u => degrees (arctan2 v u)) vs us)
  | _ => .error .valueError

/-- `np.mod(x, 360)` (droplets/sample.py:69). -/
noncomputable def mod360 (x : ℝ) : ℝ := x - 360 * ⌊x / 360⌋

/-- The distance from the origin (droplets/sample.py:61). -/
noncomputable def dist (d : ℚ × ℚ) : ℝ := Real.sqrt ((d.1 : ℝ) ^ 2 + (d.2 : ℝ) ^ 2)

open Classical in
/-- The angle of a bin in degrees; 0/0 at the origin is NaN (droplets/sample.py:67-69). -/
noncomputable def binDegrees (d : ℚ × ℚ) : Option ℝ :=
  if dist d = 0 then none
  else some (mod360 (degrees ((SignType.sign d.2 : ℝ) * Real.arccos ((d.1 : ℝ) / dist d))))

/-- `np.arange(start, stop, step)` for a positive step (droplets/sample.py:54). -/
def arange (start stop step : ℚ) : List ℚ := (List.range ⌈(stop - start) / step⌉.toNat).map fun k : ℕ => start + step * (k : ℚ)

open Classical in
/-- `np.abs(out_angles - angle).argmin()`: the first of the closest (droplets/sample.py:89). -/
noncomputable def closestIndex (out : List ℚ) (angle : ℝ) : ℕ :=
  out.findIdx fun a : ℚ => decide (∀ b ∈ out, |(a : ℝ) - angle| ≤ |(b : ℝ) - angle|)

open Classical in
/-- Row `t` and its angle, if it is within the limits of radius and angle (droplets/sample.py:64-73); `rmax = none` is
infinity. -/
noncomputable def rowWithin (d : ℕ → ℚ × ℚ) (amin amax rmin : ℚ) (rmax : Option ℚ) (t : ℕ) : Option (ℕ × ℝ) :=
  if (rmin : ℝ) ≤ dist (d t) ∧ ∀ r, rmax = some r → dist (d t) ≤ (r : ℝ) then
    (binDegrees (d t)).bind fun a => if (amin : ℝ) ≤ a ∧ a ≤ (amax : ℝ) then some (t, a) else none
  else none

/-- The rows within the limits of radius and angle (droplets/sample.py:64-73). -/
noncomputable def rowsWithin (n : ℕ) (d : ℕ → ℚ × ℚ) (amin amax rmin : ℚ) (rmax : Option ℚ) : List (ℕ × ℝ) :=
  (List.range n).filterMap (rowWithin d amin amax rmin rmax)

/-- `sample_per_angle_from` (droplets/sample.py:6-108) for a positive interval size (a step of 0 raises
`ZeroDivisionError`, negative ones are not modelled): the angles and the values. -/
noncomputable def perAngle (f : Flow) (origin : ℚ × ℚ) (label : Label) (coords : Label × Label := ("X", "Y")) (weight : Option Label := none)
    (amin amax : ℚ) (rmin : ℚ) (rmax : Option ℚ) (size : ℚ) : Except Err (List (ℚ × ℚ)) := do
  let amin := max 0 amin
  let amax := min (360 - size) amax
  if size ≤ 0 then .error .zeroDivisionError
  else do
    let out := arange amin (amax + size) size
    let xs ← field f.data coords.1
    let ys ← field f.data coords.2
    let vs ← field f.data label
    let ws ← weightsOf f.data (Flow.size f.data) weight
    let rows := rowsWithin (Flow.size f.data) (fun t => (xs.getD t 0 - origin.1, ys.getD t 0 - origin.2)) amin amax rmin rmax
    let bin := fun k => rows.filter fun p => closestIndex out (p.2 - 1 / 2 * (size : ℝ) + 1 / 1000000) == k
    if out = [] ∧ rows ≠ [] then .error .valueError
    else .ok (out.zipIdx.map fun ak =>
      let w := ((bin ak.2).map fun p => ws.getD p.1 0).sum
      (ak.1, if bin ak.2 ≠ [] ∧ 0 < w then ((bin ak.2).map fun p => vs.getD p.1 0 * ws.getD p.1 0).sum / w else 0))

end Strata.Sample
