import Verif.Spec.Resample
/-!
# Specification vocabulary for C162: a map in a mirror, or with its axes exchanged
-/
namespace Strata.Resample
open Strata Strata.Flow Strata.Average

/-- Ways to look at a map: in a mirror at `x = a`, or with the axes exchanged.  (Quarter and half turns and the other mirrors are
combinations of these.) -/
inductive Motion where
  | mirror (a : ℚ)
  | exchange

/-- Where a position is seen. -/
def Motion.pos : Motion → ℚ × ℚ → ℚ × ℚ
  | .mirror a, p => (2 * a - p.1, p.2)
  | .exchange, p => (p.2, p.1)

/-- How a vector (a flow or a gradient) is seen. -/
def Motion.vec : Motion → ℚ × ℚ → ℚ × ℚ
  | .mirror _, v => (-v.1, v.2)
  | .exchange, v => (v.2, v.1)

/-- How the grid is seen: spacing, lowest bin and number of bins. -/
def Motion.grid (sp : ℚ × ℚ) (x0 y0 : ℚ) (nx ny : ℕ) : Motion → (ℚ × ℚ) × (ℚ × ℚ) × (ℕ × ℕ)
  | .mirror a => (sp, (2 * a - (x0 + sp.1 * ((nx - 1 : ℕ) : ℚ)), y0), (nx, ny))
  | .exchange => ((sp.2, sp.1), (y0, x0), (ny, nx))

/-- `f'` is the map `f` seen in the mirror or with the axes exchanged: the grid is, the flow is, and the other fields have the same
values where they are seen.  The bins of both maps may be stored in any order. -/
structure Seen (m : Motion) (sp : ℚ × ℚ) (x0 y0 : ℚ) (nx ny : ℕ) (f f' : Flow) : Prop where
  left : FullMap f sp x0 y0 nx ny
  right : FullMap f' (m.grid sp x0 y0 nx ny).1 (m.grid sp x0 y0 nx ny).2.1.1 (m.grid sp x0 y0 nx ny).2.1.2 (m.grid sp x0 y0 nx ny).2.2.1 (m.grid sp x0 y0 nx ny).2.2.2
  fields : names f.data = names f'.data
  flow : ∀ p : ℚ × ℚ, (valueAt f'.data "U" (m.pos p).1 (m.pos p).2, valueAt f'.data "V" (m.pos p).1 (m.pos p).2) =
    m.vec (valueAt f.data "U" p.1 p.2, valueAt f.data "V" p.1 p.2)
  other : ∀ l, l ∉ ["X", "Y", "U", "V"] → ∀ p : ℚ × ℚ, valueAt f'.data l (m.pos p).1 (m.pos p).2 = valueAt f.data l p.1 p.2

/-- One value for every bin of `g` and of `g'`, and those of bins seen at the same place are related. -/
def AtSeen {α β : Type} (R : α → β → Prop) (m : Motion) (g g' : Flow) (d : List α) (d' : List β) : Prop :=
  d.length = Flow.size g.data ∧ d'.length = Flow.size g'.data ∧
  ∀ t (_ : t < Flow.size g.data) t' (_ : t' < Flow.size g'.data),
    (val g'.data "X" t', val g'.data "Y" t') = m.pos (val g.data "X" t, val g.data "Y" t) →
    ∃ a b, d[t]? = some a ∧ d'[t']? = some b ∧ R a b

end Strata.Resample
