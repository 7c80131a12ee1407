import Verif.Model.Resample
/-!
# Model of `droplets/sample.py`: centre of mass, inertial energy, viscous dissipation

Numbers are exact rationals; infinite and NaN results are `none`.
-/
namespace Strata.Sample
open Strata Strata.Flow Strata.Average

/-- `np.average(values, weights=weights)`: weights summing to zero raise `ZeroDivisionError`
(droplets/sample.py:186). -/
def npAverage (vs ws : List ℚ) : Except Err ℚ :=
  if ws.sum = 0 then .error .zeroDivisionError else .ok ((List.zipWith (· * ·) vs ws).sum / ws.sum)

/-- `sample_center_of_mass` (droplets/sample.py:169-187). -/
def centerOfMass (f : Flow) (mass : Label := "M") (coords : List Label := ["X", "Y"]) : Except Err (List ℚ) :=
  coords.mapM fun l => do npAverage (← field f.data l) (← field f.data mass)

/-- `sample_inertial_energy` (droplets/sample.py:190-205). -/
def inertialEnergy (f : Flow) (mass : Label := "M") (flows : Label × Label := ("U", "V")) : Except Err (List ℚ) := do
  let m ← field f.data mass
  let u ← field f.data flows.1
  let v ← field f.data flows.2
  .ok ((List.range (size f.data)).map fun t => 1 / 2 * m.getD t 0 * (u.getD t 0 ^ 2 + v.getD t 0 ^ 2))

/-- `np.gradient` along one axis of length `n` with spacing `h` and `edge_order=2`, at position `i`: central differences
inside, three point differences at the two ends (droplets/sample.py:160-161). -/
def gradient (n : ℕ) (h : ℚ) (f : ℕ → ℚ) (i : ℕ) : ℚ :=
  if i = 0 then -3 / 2 / h * f 0 + 2 / h * f 1 + -1 / 2 / h * f 2
  else if i + 1 = n then 1 / 2 / h * f (n - 3) + -2 / h * f (n - 2) + 3 / 2 / h * f (n - 1)
  else (f (i + 1) - f (i - 1)) / (2 * h)

/-- The two gradients of a column of shape `(ny, nx)` in row `t`: along axis 0 and along axis 1
(droplets/sample.py:160-161). -/
def gradients (nx ny : ℕ) (dy dx : ℚ) (c : ℕ → ℚ) (t : ℕ) : ℚ × ℚ :=
  (gradient ny dy (fun j => c (j * nx + t % nx)) (t / nx), gradient nx dx (fun i => c (t / nx * nx + i)) (t % nx))

/-- The formula of the dissipation (droplets/sample.py:163-164). -/
def formula (μ dudx dudy dvdx dvdy : ℚ) : ℚ :=
  2 * μ * (dudx ^ 2 + dvdy ^ 2 - (dudx + dvdy) ^ 2 / 3) + μ * (dvdx + dudy) ^ 2

/-- The weights: a field, or the scalar 1 (droplets/sample.py:157). -/
def weightsOf (r : Record) (n : ℕ) : Option Label → Except Err (List ℚ)
  | none => .ok (List.replicate n 1)
  | some l => field r l

/-- `sample_viscous_dissipation` (droplets/sample.py:111-166): the flow object, whose data is sorted in place, and the
result, flattened.  An axis of fewer than three bins makes `np.gradient` raise `ValueError`.  Negative shapes (where
`reshape` infers an axis) are taken as wrong ones. -/
def viscousDissipation (f : Flow) (μ : ℚ) (coords : Label × Label := ("X", "Y")) (flows : Label × Label := ("U", "V"))
    (weight : Option Label := none) : Except Err (Flow × List (Option ℚ)) :=
  match f.info.shape, f.info.spacing with
  | some (nx, ny), some (dx, dy) => do
    let g ← sort f coords
    if nx < 0 ∨ ny < 0 ∨ (size g.data : ℤ) ≠ nx * ny then .error .valueError
    else do
      let nx := nx.toNat
      let ny := ny.toNat
      let w ← weightsOf g.data (nx * ny) weight
      let u ← field g.data flows.1
      let v ← field g.data flows.2
      if nx < 3 ∨ ny < 3 then .error .valueError
      else
        let u := fun t => u.getD t 0 * w.getD t 0
        let v := fun t => v.getD t 0 * w.getD t 0
        .ok (g, (List.range (nx * ny)).map fun t =>
          let (dudy, dudx) := gradients nx ny dy dx u t
          let (dvdy, dvdx) := gradients nx ny dy dx v t
          if dx = 0 ∨ dy = 0 ∨ w.getD t 0 = 0 then none
          else some (formula μ dudx dudy dvdx dvdy / w.getD t 0 ^ 2))
  | _, _ => .error .valueError

end Strata.Sample
