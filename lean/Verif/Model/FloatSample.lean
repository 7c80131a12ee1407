import Verif.Model.Sample
import Verif.Model.FloatAverage
/-!
# Model of `droplets/sample.py` in floating point

The functions of Model/Sample.lean with every arithmetic result rounded.  The rounding `fl` and the order of additions `sum` are parameters; there is no
overflow or underflow (the exponent is not bounded).  The coordinates are sorted exactly.
-/
namespace Strata.FloatSample
open Strata Strata.Flow Strata.Average Strata.Sample

/-- `x**2` (droplets/sample.py:163-166, :205). -/
def square (fl : ℚ → ℚ) (x : ℚ) : ℚ := fl (x * x)

/-- `np.average(values, weights=weights)` (droplets/sample.py:186). -/
def npAverage (fl : ℚ → ℚ) (sum : List ℚ → ℚ) (vs ws : List ℚ) : Except Err ℚ :=
  if sum ws = 0 then .error .zeroDivisionError else .ok (fl (sum (List.zipWith (fun v w => fl (v * w)) vs ws) / sum ws))

/-- `sample_center_of_mass` (droplets/sample.py:169-187). -/
def centerOfMass (fl : ℚ → ℚ) (sum : List ℚ → ℚ) (f : Flow) (mass : Label := "M") (coords : List Label := ["X", "Y"]) : Except Err (List ℚ) :=
  coords.mapM fun l => do npAverage fl sum (← field f.data l) (← field f.data mass)

/-- `0.5 * M * (U**2 + V**2)` in one bin (droplets/sample.py:205). -/
def energy (fl : ℚ → ℚ) (m u v : ℚ) : ℚ := fl (fl (1 / 2 * m) * fl (square fl u + square fl v))

/-- `sample_inertial_energy` (droplets/sample.py:190-205). -/
def inertialEnergy (fl : ℚ → ℚ) (f : Flow) (mass : Label := "M") (flows : Label × Label := ("U", "V")) : Except Err (List ℚ) := do
  let m ← field f.data mass
  let u ← field f.data flows.1
  let v ← field f.data flows.2
  .ok ((List.range (size f.data)).map fun t => energy fl (m.getD t 0) (u.getD t 0) (v.getD t 0))

/-- The three point differences at the ends, with factors that are divided by the spacing first (droplets/sample.py:160-161). -/
def threePoint (fl : ℚ → ℚ) (h a b c x y z : ℚ) : ℚ := fl (fl (fl (fl (a / h) * x) + fl (fl (b / h) * y)) + fl (fl (c / h) * z))

/-- `np.gradient` along one axis (droplets/sample.py:160-161). -/
def gradient (fl : ℚ → ℚ) (n : ℕ) (h : ℚ) (f : ℕ → ℚ) (i : ℕ) : ℚ :=
  if i = 0 then threePoint fl h (-3 / 2) 2 (-1 / 2) (f 0) (f 1) (f 2)
  else if i + 1 = n then threePoint fl h (1 / 2) (-2) (3 / 2) (f (n - 3)) (f (n - 2)) (f (n - 1))
  else fl (fl (f (i + 1) - f (i - 1)) / fl (2 * h))

/-- The two gradients in row `t` (droplets/sample.py:160-161). -/
def gradients (fl : ℚ → ℚ) (nx ny : ℕ) (dy dx : ℚ) (c : ℕ → ℚ) (t : ℕ) : ℚ × ℚ :=
  (gradient fl ny dy (fun j => c (j * nx + t % nx)) (t / nx), gradient fl nx dx (fun i => c (t / nx * nx + i)) (t % nx))

/-- The formula of the dissipation (droplets/sample.py:163-164). -/
def formula (fl : ℚ → ℚ) (μ dudx dudy dvdx dvdy : ℚ) : ℚ :=
  fl (fl (fl (2 * μ) * fl (fl (square fl dudx + square fl dvdy) - fl (square fl (fl (dudx + dvdy)) / 3))) + fl (μ * square fl (fl (dvdx + dudy))))

/-- `sample_viscous_dissipation` (droplets/sample.py:111-166), as `Sample.viscousDissipation`. -/
def viscousDissipation (fl : ℚ → ℚ) (f : Flow) (μ : ℚ) (coords : Label × Label := ("X", "Y")) (flows : Label × Label := ("U", "V"))
    (weight : Option Label := none) : Except Err (Flow × List (Option ℚ)) :=
  match f.info.shape, f.info.spacing with
  | some (nx, ny), some (dx, dy) => do
    let g ← sort f coords
    if nx < 0 ∨ ny < 0 ∨ (size g.data : ℤ) ≠ nx * ny then .error .valueError
    else do
      let nx := nx.toNat
      let ny := ny.toNat
      let w ← weightsOf g.data (nx * ny) weight
      let u ← field g.data flows.1
      let v ← field g.data flows.2
      if nx < 3 ∨ ny < 3 then .error .valueError
      else
        let u := fun t => fl (u.getD t 0 * w.getD t 0)
        let v := fun t => fl (v.getD t 0 * w.getD t 0)
        .ok (g, (List.range (nx * ny)).map fun t =>
          let (dudy, dudx) := gradients fl nx ny dy dx u t
          let (dvdy, dvdx) := gradients fl nx ny dy dx v t
          if dx = 0 ∨ dy = 0 ∨ w.getD t 0 = 0 then none
          else some (fl (formula fl μ dudx dudy dvdx dvdy / square fl (w.getD t 0))))
  | _, _ => .error .valueError

end Strata.FloatSample
