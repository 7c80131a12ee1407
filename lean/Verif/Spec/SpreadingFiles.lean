import Mathlib.Algebra.Order.Floor.Ring
import Mathlib.Data.Rat.Floor
import Mathlib.Data.Set.Card
/-!
# Specification: the wetted part of a layer of a periodic map (C122)

`M k j` is the mass in column `k` (from left, `k < nx`) and layer `j` (from below, `j < ny`); bins are `dx` by `dy`, the box is continued periodically in x.
-/
namespace Strata.Spec

/-- The bin in column `k` and layer `j` is liquid: its mass reaches the cut-off `c`, and so do at least `bins` others at most `r` away.  Columns of neighbours are integers: column `a` of the
periodic system is column `a mod nx` of the map. -/
def WetBin (M : ℕ → ℕ → ℚ) (nx ny : ℕ) (dx dy r c : ℚ) (bins : ℤ) (k j : ℕ) : Prop :=
  c ≤ M k j ∧ bins ≤ (Set.ncard {p : ℤ × ℕ | p.2 < ny ∧ p ≠ ((k : ℤ), j) ∧ c ≤ M (p.1 % nx).toNat p.2 ∧
    (dx * ((p.1 : ℚ) - k)) ^ 2 + (dy * ((p.2 : ℚ) - j)) ^ 2 ≤ r ^ 2} : ℤ)

/-- The `len` columns from `start` on, continued periodically, are wet, and there is no longer wet stretch (of at most one period). -/
def LongestStretch (wet : ℕ → Prop) (nx start len : ℕ) : Prop :=
  1 ≤ len ∧ len ≤ nx ∧ start < nx ∧ (∀ t, t < len → wet ((start + t) % nx)) ∧
  ∀ start' len', len' ≤ nx → (∀ t, t < len' → wet ((start' + t) % nx)) → len' ≤ len

/-- The cut-off used: the given one, or the middle between the least and the greatest mass, if they are different. -/
def UsedCutoff (M : ℕ → ℕ → ℚ) (nx ny : ℕ) (given : Option ℚ) (c : ℚ) : Prop :=
  given = some c ∨ given = none ∧ ∃ lo hi, lo ≠ hi ∧ c = (lo + hi) / 2 ∧ (∃ k j, k < nx ∧ j < ny ∧ M k j = lo) ∧ (∃ k j, k < nx ∧ j < ny ∧ M k j = hi) ∧
    ∀ k j, k < nx → j < ny → lo ≤ M k j ∧ M k j ≤ hi

/-- The distance of a layer from the floor as it is measured: 0 for `floor < y ≤ floor + 1`. -/
def FloorDistance (floor y : ℚ) : ℤ := |⌈y - floor⌉ - 1|

/-- Layer `j` is searched: any without a floor, otherwise the first of the layers with least distance from the floor. -/
def SearchedLayer (ny : ℕ) (y1 dy : ℚ) (floor : Option ℚ) (j : ℕ) : Prop :=
  ∀ v, floor = some v → (∀ i, i < ny → FloorDistance v (y1 + dy * j) ≤ FloorDistance v (y1 + dy * i)) ∧ ∀ i, i < j → FloorDistance v (y1 + dy * j) < FloorDistance v (y1 + dy * i)

end Strata.Spec
