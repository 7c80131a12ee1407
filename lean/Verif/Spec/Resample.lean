import Verif.Model.Resample
import Verif.Spec.Average
import Mathlib.Algebra.BigOperators.Intervals
import Mathlib.Algebra.Order.BigOperators.Ring.Finset
/-!
# Specification vocabulary for resampling

A map is a full grid if its bins are exactly the nodes of a regular grid, in any row order.  Values are looked up by
position (`valueAt`, Spec/Average.lean).
-/
namespace Strata.Resample
open Strata Strata.Flow Strata.Average

/-- The bins of the record are exactly the nodes `(x0 + dx i, y0 + dy j)`, `i < nx`, `j < ny`, once each. -/
structure FullGrid (r : Record) (sp : ℚ × ℚ) (x0 y0 : ℚ) (nx ny : ℕ) (co : Label × Label := ("X", "Y")) : Prop where
  wf : Wf r
  hasX : co.1 ∈ names r
  hasY : co.2 ∈ names r
  nxpos : 0 < nx
  nypos : 0 < ny
  node : ∀ i j, i < nx → j < ny → ∃! t, t < Flow.size r ∧ val r co.1 t = x0 + sp.1 * (i : ℚ) ∧ val r co.2 t = y0 + sp.2 * (j : ℚ)
  row : ∀ t, t < Flow.size r → ∃ i j, i < nx ∧ j < ny ∧ val r co.1 t = x0 + sp.1 * (i : ℚ) ∧ val r co.2 t = y0 + sp.2 * (j : ℚ)

/-- The value of field `l` at node `(i, j)` of the grid. -/
def atNode (r : Record) (l : Label) (sp : ℚ × ℚ) (x0 y0 : ℚ) (co : Label × Label) (i j : ℕ) : ℚ :=
  valueAt r l (x0 + sp.1 * (i : ℚ)) (y0 + sp.2 * (j : ℚ)) co

/-- A flow map whose information describes its full grid. -/
def FullMap (f : Flow) (sp : ℚ × ℚ) (x0 y0 : ℚ) (nx ny : ℕ) (co : Label × Label := ("X", "Y")) : Prop :=
  FullGrid f.data sp x0 y0 nx ny co ∧ f.info.shape = some ((nx : ℤ), (ny : ℤ)) ∧ f.info.spacing = some sp

open Finset in
/-- The sum of `F` over the block of nodes combined into new bin `(J, I)`. -/
def blockSum (n : ℕ × ℕ) (F : ℕ → ℕ → ℚ) (J I : ℕ) : ℚ :=
  ∑ b ∈ range n.2, ∑ a ∈ range n.1, F (n.1 * J + a) (n.2 * I + b)

/-- Information of the grid obtained by combining `n` bins in each direction: spacing multiplied, shape divided,
origin at the centre of the first block. -/
def downInfo (sp : ℚ × ℚ) (x0 y0 : ℚ) (nx ny : ℕ) (n : ℕ × ℕ) : Info :=
  ⟨some (((nx / n.1 : ℕ) : ℤ), ((ny / n.2 : ℕ) : ℤ)),
    some (x0 + 1 / 2 * (sp.1 * n.1 - sp.1), y0 + 1 / 2 * (sp.2 * n.2 - sp.2)),
    some (sp.1 * n.1, sp.2 * n.2), some ((nx / n.1 * (ny / n.2) : ℕ) : ℤ)⟩

/-- The bins of the grid within the limits are those in columns `a, …, a + mx - 1` and rows `b, …, b + my - 1`. -/
structure Window (sp : ℚ × ℚ) (x0 y0 : ℚ) (nx ny : ℕ) (xlim ylim : Option ℚ × Option ℚ) (a b mx my : ℕ) : Prop where
  mxpos : 0 < mx
  mypos : 0 < my
  xle : a + mx ≤ nx
  yle : b + my ≤ ny
  x : ∀ i, i < nx → (Within xlim.1 xlim.2 (x0 + sp.1 * (i : ℚ)) ↔ a ≤ i ∧ i < a + mx)
  y : ∀ j, j < ny → (Within ylim.1 ylim.2 (y0 + sp.2 * (j : ℚ)) ↔ b ≤ j ∧ j < b + my)

/-- Weights: every weighted field is listed once, and the fields and weights exist and are not coordinates. -/
def GoodWeights (r : Record) (co : Label × Label) (ws : List (Label × Label)) : Prop :=
  (ws.map Prod.fst).Nodup ∧
    ∀ p ∈ ws, p.1 ∈ names r ∧ p.2 ∈ names r ∧ p.1 ≠ co.1 ∧ p.1 ≠ co.2 ∧ p.2 ≠ co.1 ∧ p.2 ≠ co.2

/-- A field that is neither a coordinate nor weighted. -/
def Plain (r : Record) (co : Label × Label) (ws : List (Label × Label)) (l : Label) : Prop :=
  l ∈ names r ∧ l ≠ co.1 ∧ l ≠ co.2 ∧ ∀ p ∈ ws, p.1 ≠ l

open Finset in
/-- The fine bins within reach `m` of fine bin `(I, J)` along both axes. -/
def reach (NX NY m I J : ℕ) : Finset (ℕ × ℕ) :=
  (range NX ×ˢ range NY).filter fun p => (I ≤ p.1 + m ∧ p.1 ≤ I + m) ∧ J ≤ p.2 + m ∧ p.2 ≤ J + m

end Strata.Resample
