import Verif.Model.Resample
import Verif.Model.SimpleAverage
/-!
# Resampling with numbers of bins that may be negative

The functions of Model/Resample.lean and Model/SimpleAverage.lean for all integers. Python's `//` rounds down (`Int.fdiv`), `np.arange` of a negative number is empty and `np.linspace` with
a negative number of points raises `ValueError`.
-/
namespace Strata.Resample
open Strata Strata.Flow Strata.Average

/-- The information of a grid whose shape may be negative (droplets/resample.py:249-254, :275-280). -/
def intInfo (spacing origin : ℚ × ℚ) (shape : ℤ × ℤ) : InfoDict :=
  [("spacing", pairVal (some spacing)), ("shape", pairVal (some ((shape.1 : ℚ), (shape.2 : ℚ)))), ("origin", pairVal (some origin)), ("num_bins", .num ((shape.1 * shape.2 : ℤ) : ℚ))]

/-- The columns of a grid without bins (droplets/resample.py:180-183, :215; :157): an axis with a negative number of bins has none. -/
def noBins (r : Record) : Record := r.map fun c => (c.1, [])

/-- `downsample_flow_data` (droplets/resample.py:7-59, :178-263) for any integers. The loop over the new bins, where weights are looked up, is not entered if an axis is empty. -/
def downsampleInt (f : Flow) (n : ℤ × ℤ) (coords : Label × Label := ("X", "Y")) (weights : List (Label × Label) := [])
    (xlim ylim : Option ℚ × Option ℚ := (none, none)) : Except Err Flow :=
  if 0 ≤ n.1 ∧ 0 ≤ n.2 then downsample f (n.1.toNat, n.2.toNat) coords weights xlim ylim
  else do
    let f ← cutSystemLimits f xlim ylim coords
    match f.info.spacing, f.info.shape, f.info.origin with
    | some (dx, dy), some (sx, sy), some (ox, oy) =>
      if n.1 = 0 ∨ n.2 = 0 then .error .zeroDivisionError
      else do
        let sorted ← sortRecord f.data [coords.2, coords.1]
        if (size sorted : ℤ) ≠ sx * sy then .error .valueError
        else mk (asArgs (noBins sorted)) (intInfo (dx * n.1, dy * n.2) (ox + 1 / 2 * (dx * n.1 - dx), oy + 1 / 2 * (dy * n.2 - dy)) (sx.fdiv n.1, sy.fdiv n.2))
    | _, _, _ => .error .typeError

/-- `supersample_flow_data` (droplets/resample.py:62-175, :266-288) for any integer. Simplification: `reshape` refuses a negative shape. -/
def supersampleInt (f : Flow) (n : ℤ) (coords : Label × Label := ("X", "Y")) (weights : List (Label × Label) := []) : Except Err Flow :=
  if 0 ≤ n then supersample f (some n.toNat) coords weights
  else do
    let f ← copy f
    let f ← sort f coords
    match f.info.shape, f.info.spacing with
    | some (sx, sy), some (dx, dy) => do
      let ox ← npMin (← field f.data coords.1)
      let oy ← npMin (← field f.data coords.2)
      if sx < 0 ∨ sy < 0 ∨ (size f.data : ℤ) ≠ sx * sy then .error .valueError
      else do
        let _ ← premultiply (noBins f.data) weights
        mk (asArgs (noBins f.data)) (intInfo (dx / n, dy / n) (ox, oy) (sx * n, sy * n))
    | _, _ => .error .typeError

end Strata.Resample

namespace Strata.SimpleAverage
open Strata Strata.Flow

/-- `combine_bins` (strata/dataformats/simple/average.py:80-148) for any integers. If no axis has a negative number of new bins although a number is negative, an axis of the map has no bins. -/
def combineBinsInt (d : Record) (i : CInfo) (nx ny : ℤ) : Except Err (Record × CInfo) :=
  if nx = 0 ∨ ny = 0 then .error .zeroDivisionError
  else if (i.shape.1 : ℤ).fdiv nx < 0 ∨ (i.shape.2 : ℤ).fdiv ny < 0 then .error .valueError
  else if 0 < nx ∧ 0 < ny then combineBins d i nx.toNat ny.toNat
  else do
    let _ ← ["N", "M", "T", "U", "V"].mapM fun l => reshaped d l i.shape
    .ok (["X", "Y", "N", "M", "T", "U", "V"].map fun l => (l, []),
      ⟨(((i.shape.1 : ℤ).fdiv nx).toNat, ((i.shape.2 : ℤ).fdiv ny).toNat), (i.spacing.1 * nx, i.spacing.2 * ny),
        (i.origin.1 + 1 / 2 * i.spacing.1 * (nx - 1), i.origin.2 + 1 / 2 * i.spacing.2 * (ny - 1)), 0⟩)

end Strata.SimpleAverage
