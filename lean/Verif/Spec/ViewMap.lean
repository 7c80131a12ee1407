import Verif.Model.ViewMap
import Verif.Spec.View
/-!
# Specification vocabulary for height maps and contour maps
-/
namespace Strata.View
open Strata Strata.Flow Strata.Average

open scoped Classical in
/-- What a cell with value `v` shows: the value, or nothing if it is outside the limits. -/
noncomputable def shownValue (lims : Option ℝ × Option ℝ) (v : ℝ) : Option ℝ :=
  if (∀ c, lims.1 = some c → c ≤ v) ∧ (∀ c, lims.2 = some c → v ≤ c) then some v else none

/-- Entry `(i, j)` of an array. -/
def entry {V : Type} (d : V) (a : List (List V)) (i j : ℕ) : V := (a.getD i []).getD j d

/-- Two positions are one bin apart along one of the axes. -/
def Neighbours (sp p q : ℚ × ℚ) : Prop :=
  (p.2 = q.2 ∧ |p.1 - q.1| = sp.1) ∨ (p.1 = q.1 ∧ |p.2 - q.2| = sp.2)

/-- Entries next to each other belong to bins next to each other. -/
def GridArrays (sp : ℚ × ℚ) (nx ny : ℕ) (xs ys : List (List ℚ)) : Prop :=
  ∀ i j, i < nx → j < ny →
    (i + 1 < nx → Neighbours sp (entry 0 xs i j, entry 0 ys i j) (entry 0 xs (i + 1) j, entry 0 ys (i + 1) j)) ∧
    (j + 1 < ny → Neighbours sp (entry 0 xs i j, entry 0 ys i j) (entry 0 xs i (j + 1), entry 0 ys i (j + 1)))

/-- The labels with a meaning of their own; all others are fields of the files. -/
def special : List Label := ["flow", "visc_diss", "evaporation", "grad_rho_x", "grad_rho_y"]

end Strata.View
