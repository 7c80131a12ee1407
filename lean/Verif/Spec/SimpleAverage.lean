import Verif.Model.SimpleAverage
import Verif.Spec.Average
import Mathlib.Algebra.BigOperators.Intervals
/-!
# Specification vocabulary for averages and combinations of file data
-/
namespace Strata.SimpleAverage
open Strata Strata.Flow Strata.Average

/-- The dict has the seven fields of the file formats, with `n` values each. -/
def HasFields (d : Record) (n : ℕ) : Prop :=
  ∀ l ∈ ["X", "Y", "N", "T", "M", "U", "V"], ∃ c, col? d l = some c ∧ c.length = n

/-- The coordinates of two dicts agree within the tolerances. -/
def Close (atol rtol : ℚ) (n : ℕ) (d0 d : Record) : Prop :=
  ∀ l ∈ ["X", "Y"], ∀ t, t < n → |val d0 l t - val d l t| ≤ atol + rtol * |val d l t|

/-- The sum of a field over the dicts, in row `t`. -/
def sumOver (ds : List Record) (l : Label) (t : ℕ) : ℚ := (ds.map fun d => val d l t).sum

/-- The sum of a field times a weight over the dicts, in row `t`. -/
def sumOver2 (ds : List Record) (l w : Label) (t : ℕ) : ℚ := (ds.map fun d => val d l t * val d w t).sum

/-- Value of a field in column `i` and row `j` of a grid with `ny` rows, stored column after column. -/
def cell (d : Record) (l : Label) (ny i j : ℕ) : ℚ := val d l (i * ny + j)

open Finset in
/-- Sum over the bins in columns below `a` and rows below `b`. -/
def gridSum (a b : ℕ) (f : ℕ → ℕ → ℚ) : ℚ := ∑ i ∈ range a, ∑ j ∈ range b, f i j

open Finset in
/-- Sum over the block of `nx` × `ny` bins that is combined into bin `(I, J)`. -/
def block (nx ny : ℕ) (f : ℕ → ℕ → ℚ) (I J : ℕ) : ℚ := ∑ a ∈ range nx, ∑ b ∈ range ny, f (nx * I + a) (ny * J + b)

end Strata.SimpleAverage
