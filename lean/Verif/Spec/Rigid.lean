import Verif.Spec.Flow
import Mathlib.Analysis.SpecialFunctions.Trigonometric.Basic
/-!
# Specification vocabulary for C163: a map that is moved as a whole
-/
namespace Strata.Flow

/-- A rigid motion of the plane: a turn through any angle or a mirror (an orthogonal matrix with rows `(a, b)` and `(c, d)`), and a
displacement `(tx, ty)`. -/
structure Rigid where
  a : ℚ
  b : ℚ
  c : ℚ
  d : ℚ
  tx : ℚ
  ty : ℚ
  unit1 : a ^ 2 + c ^ 2 = 1
  unit2 : b ^ 2 + d ^ 2 = 1
  right : a * b + c * d = 0

namespace Rigid

/-- Where a position is moved to. -/
def pos (m : Rigid) (p : ℚ × ℚ) : ℚ × ℚ := (m.a * p.1 + m.b * p.2 + m.tx, m.c * p.1 + m.d * p.2 + m.ty)

/-- How a flow is turned. -/
def vec (m : Rigid) (v : ℚ × ℚ) : ℚ × ℚ := (m.a * v.1 + m.b * v.2, m.c * v.1 + m.d * v.2)

/-- 1 for turns, -1 for mirrors. -/
def sign (m : Rigid) : ℚ := m.a * m.d - m.b * m.c

/-- Angle `θ'` (in degrees) is the direction that a vector with direction `θ` gets. -/
def Direction (m : Rigid) (θ θ' : ℝ) : Prop :=
  Real.cos (θ' * Real.pi / 180) = m.a * Real.cos (θ * Real.pi / 180) + m.b * Real.sin (θ * Real.pi / 180) ∧
  Real.sin (θ' * Real.pi / 180) = m.c * Real.cos (θ * Real.pi / 180) + m.d * Real.sin (θ * Real.pi / 180)

/-- A bin after the motion: position and flow are moved and turned, the other values stay. -/
def bin (m : Rigid) (b : Bin) : Bin := b.map fun lv =>
  let p := m.pos ((b.val "X").getD 0, (b.val "Y").getD 0)
  let v := m.vec ((b.val "U").getD 0, (b.val "V").getD 0)
  (lv.1, if lv.1 = "X" then p.1 else if lv.1 = "Y" then p.2 else if lv.1 = "U" then v.1 else if lv.1 = "V" then v.2 else lv.2)

end Rigid

/-- `f'` has the bins of `f`, moved, stored in any order. -/
structure Moved (m : Rigid) (f f' : Flow) : Prop where
  left : Wf f.data
  right : Wf f'.data
  fields : names f'.data = names f.data
  has : ∀ l ∈ ["X", "Y", "U", "V"], l ∈ names f.data
  bins : (bins f'.data).Perm ((bins f.data).map m.bin)

/-- Bin `t'` of `f'` is bin `t` of `f`, moved. -/
def SameBin (m : Rigid) (f f' : Flow) (t t' : ℕ) : Prop :=
  t < size f.data ∧ t' < size f'.data ∧ binAt f'.data t' = m.bin (binAt f.data t)

/-- The net flow of a map, weighted. -/
def netFlow (f : Flow) (weight : Option Label) : ℚ × ℚ :=
  (((bins f.data).map fun b => (b.val "U").getD 0 * weight.elim 1 fun w => (b.val w).getD 0).sum,
   ((bins f.data).map fun b => (b.val "V").getD 0 * weight.elim 1 fun w => (b.val w).getD 0).sum)

end Strata.Flow
