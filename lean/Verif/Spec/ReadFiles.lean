import Verif.Model.ReadFiles
import Verif.Spec.Driver
import Verif.Spec.Gmx
import Verif.Spec.SimpleAverage
import Verif.Spec.Simple
/-!
# Specification vocabulary for the conversion of files
-/
namespace Strata.Driver
open Strata Strata.Flow Strata.Average Strata.Files Strata.Bytes Strata.SimpleAverage

/-- A map on a grid of `nx` by `ny` bins of size `dx` by `dy`: its fields, the positions of its bins, column after column from the first bin at `(x1, y1)`,
and its information with the given origin. -/
structure OnGrid (m : Map) (nx ny : ℕ) (dx dy x1 y1 : ℚ) (origin : ℚ × ℚ) : Prop where
  info : m.2.1 = ⟨(nx, ny), (some dx, some dy), some origin, nx * ny⟩
  labels : names m.1 = ["X", "Y", "N", "T", "M", "U", "V"]
  sizes : ∀ c ∈ m.1, c.2.length = nx * ny
  pos : ∀ t, t < nx * ny → val m.1 "X" t = x1 + dx * ((t / ny : ℕ) : ℚ) ∧ val m.1 "Y" t = y1 + dy * ((t % ny : ℕ) : ℚ)

/-- The bins with mass: none at all, or so many that the gmx reader reads the file correctly (`C47_small_maps_are_unreadable`). -/
def EnoughMass (d : Record) (n : ℕ) : Prop :=
  (∀ t, t < n → val d "M" t = 0) ∨ 29 ≤ ((List.range n).filter fun t => decide (val d "M" t ≠ 0)).length

/-- The information has at most six decimals and indices fit into 64 bits. -/
def SixDecimals (i : DInfo) : Prop :=
  i.shape.1 ≤ 2 ^ 64 ∧ i.shape.2 ≤ 2 ^ 64 ∧ ∀ x, some x = i.spacing.1 ∨ some x = i.spacing.2 ∨ some x = i.origin.map Prod.fst ∨ some x = i.origin.map Prod.snd →
    ∃ k : ℤ, x = k / 10 ^ 6

/-- Maps of one group, all on the same grid. -/
def SameGrid (ms : List Map) (nx ny : ℕ) (dx dy x1 y1 : ℚ) (or : ℚ × ℚ) (module_ : ℕ) : Prop :=
  ms ≠ [] ∧ ∀ m ∈ ms, OnGrid m nx ny dx dy x1 y1 or ∧ m.2.2 = module_

/-- The bins with mass in any map of the group (strictly: whose masses do not add up to 0) are none or at least 29. -/
def EnoughSum (ms : List Map) (n : ℕ) : Prop :=
  (∀ t, t < n → sumOver (ms.map Prod.fst) "M" t = 0) ∨ 29 ≤ ((List.range n).filter fun t => decide (sumOver (ms.map Prod.fst) "M" t ≠ 0)).length

/-- The average of a group as it should be stored: in a bin with mass the mean mass and number, the velocities weighted by mass and the temperature
weighted by number, in single precision; nothing in a bin without mass. -/
def IsAverage (F : F32) (ds : List Record) (n : ℕ) (d : Record) : Prop :=
  ∀ t, t < n →
    (sumOver ds "M" t = 0 → ∀ l ∈ ["N", "T", "M", "U", "V"], val d l t = 0) ∧
    (sumOver ds "M" t ≠ 0 → val d "M" t = F.rnd (sumOver ds "M" t / (ds.length : ℚ)) ∧ val d "N" t = F.rnd (sumOver ds "N" t / (ds.length : ℚ)) ∧
      val d "U" t = F.rnd (sumOver2 ds "U" "M" t / sumOver ds "M" t) ∧ val d "V" t = F.rnd (sumOver2 ds "V" "M" t / sumOver ds "M" t) ∧
      (sumOver ds "N" t ≠ 0 → val d "T" t = F.rnd (sumOver2 ds "T" "N" t / sumOver ds "N" t)))

end Strata.Driver
