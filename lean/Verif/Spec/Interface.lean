import Verif.Model.Interface
import Verif.Spec.Flow
import Mathlib.Data.Set.Card
/-!
# Specification vocabulary for the interface search

A bin is identified by its row number in the map.
-/
namespace Strata.Interface
open Strata Strata.Flow

/-- Cell `b` is at most `r` away from cell `a` (for `0 ≤ r`). -/
def Near (r : ℚ) (a b : Cell) : Prop := (b.x - a.x) ^ 2 + (b.y - a.y) ^ 2 ≤ r ^ 2

instance (r : ℚ) (a b : Cell) : Decidable (Near r a b) := by unfold Near; infer_instance

/-- Bin `i` is liquid: its value reaches the cut-off and so do at least `bins` other bins near it. -/
def Liquid (s : System) (r cutoff : ℚ) (bins : ℤ) (i : ℕ) : Prop :=
  i < s.length ∧ cutoff ≤ (row s i).v ∧
  bins ≤ (((Finset.range s.length).filter fun j =>
    j ≠ i ∧ cutoff ≤ (row s j).v ∧ Near r (row s i) (row s j)).card : ℤ)

/-- The image of a cell `k` box lengths to the right. -/
def image (box : ℚ) (k : ℤ) (c : Cell) : Cell := { c with x := c.x + k * box }

/-- Bin `i` is liquid in the system continued periodically in x with period `box`: all images of all bins
count as neighbours. -/
def PeriodicLiquid (s : System) (box r cutoff : ℚ) (bins : ℤ) (i : ℕ) : Prop :=
  i < s.length ∧ cutoff ≤ (row s i).v ∧
  bins ≤ (Set.ncard {p : ℕ × ℤ | p.1 < s.length ∧ p ≠ (i, 0) ∧ cutoff ≤ (row s p.1).v ∧
    Near r (row s i) (image box p.2 (row s p.1))} : ℤ)

/-- All positions `start, start + 1, ..., start + len - 1` of the cyclic list `l` satisfy `P`. -/
def CyclicRun {α : Type} (P : α → Prop) (l : List α) (start len : ℕ) : Prop :=
  ∀ t, t < len → ∃ a, l[(start + t) % l.length]? = some a ∧ P a

/-- `(start, len)` is a longest cyclic run; the run never exceeds one turn. -/
def LongestRun {α : Type} (P : α → Prop) (l : List α) (start len : ℕ) : Prop :=
  1 ≤ len ∧ len ≤ l.length ∧ start < l.length ∧ CyclicRun P l start len ∧
  ∀ start' len', len' ≤ l.length → CyclicRun P l start' len' → len' ≤ len

/-- The row numbers of the bins at height `y`, in the order of the data. -/
def layerRows (s : System) (y : ℚ) : List ℕ := (List.range s.length).filter fun i => (row s i).y = y

/-- The layer at height `y` has liquid bins, the outermost of which are at `xl` and `xr`. -/
def LiquidLayer (s : System) (r cutoff : ℚ) (bins : ℤ) (y xl xr : ℚ) : Prop :=
  (∃ i, Liquid s r cutoff bins i ∧ (row s i).y = y ∧ (row s i).x = xl) ∧
  (∃ i, Liquid s r cutoff bins i ∧ (row s i).y = y ∧ (row s i).x = xr) ∧
  ∀ j, Liquid s r cutoff bins j → (row s j).y = y → xl ≤ (row s j).x ∧ (row s j).x ≤ xr

/-- The map seen in a mirror: x changes sign. -/
def mirror (s : System) : System := s.map fun c => { c with x := -c.x }

/-- The map moved by `a` along x. -/
def shiftX (a : ℚ) (s : System) : System := s.map fun c => { c with x := c.x + a }

/-- `m` is the smallest difference between different values in `l`. -/
def MinGap (l : List ℚ) (m : ℚ) : Prop :=
  (∃ a ∈ l, ∃ b ∈ l, a < b ∧ b - a = m) ∧ ∀ a ∈ l, ∀ b ∈ l, a < b → m ≤ b - a

/-- Common setting: default search with cut-off `c` and radius `r`. -/
structure Setting (s : System) (o : Opts) (floor : Option ℚ) (r c : ℚ) (yf : Option ℚ) : Prop where
  method : o.longest = false
  cutoff : getCutoff o.cutoff s = .ok c
  radius : getRadius o.radius s = .ok r
  floorLayer : floorOf floor s = .ok yf

end Strata.Interface
