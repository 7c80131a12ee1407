import Verif.Model.Spreading
/-!
# Specification vocabulary: spreading seen in a mirror
-/
namespace Strata.Spreading
open Strata

/-- The frame seen in a mirror in the middle of the box: the right edge becomes the left one. -/
def Frame.mirrored (f : Frame) : Frame := { f with edges := f.edges.map fun e => (f.box - e.2, f.box - e.1) }

/-- A row of the result, seen in a mirror at `K / 2`. -/
def Row.mirrored (K : ℚ) (r : Row) : Row := { r with left := K - r.right, right := K - r.left }

/-- A line of the file, seen in a mirror at `K / 2`. -/
def Line.mirrored (K : ℚ) : Line → Line
  | .impact t p => .impact t p
  | .row r => .row (r.mirrored K)

/-- Neither on the boundary nor in the middle of a box, or of an image of the box. -/
def Inside (box x : ℚ) : Prop := ∀ k : ℤ, x ≠ (k : ℚ) * (box / 2)

/-- The edges change sides from `p` to `e`, and moved equally far. -/
def Tied (p e : ℚ × ℚ) : Prop := ¬ (p.2 < p.1 ↔ e.2 < e.1) ∧ |e.1 - p.1| = |e.2 - p.2|

end Strata.Spreading
