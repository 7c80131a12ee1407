import Verif.Model.InterfaceFiles
import Verif.Spec.Spreading
import Verif.Spec.Interface
import Mathlib.Analysis.SpecialFunctions.Complex.Arg
/-!
# Specification vocabulary for interface files
-/
namespace Strata.InterfaceFiles
open Strata Strata.Flow Strata.Interface Strata.Spreading Strata.Spec

/-- `n` heights `d` apart, the lowest is `y0`. -/
def levels (y0 d : ℚ) (n : ℕ) : List ℚ := (List.range n).map fun i : ℕ => y0 + d * (i : ℚ)

/-- The indexing of evenly spaced heights. -/
def levelIndex (y0 d : ℚ) (n : ℕ) : YIndex := ⟨y0, y0 + d * ((n : ℚ) - 1), d, n⟩

/-- The heights are far enough apart for `np.isclose` to tell a lowest height `y` from its neighbours. -/
def Distinct (d y : ℚ) : Prop := 1 / 100000000 + 1 / 100000 * |y| < d

/-- A profile of an interface on a common lattice of heights: `num` heights beginning with lattice number `base`; `edge k` are the true
(unwrapped) edges at lattice height `k`. -/
structure Profile where
  base : ℤ
  num : ℕ
  edge : ℤ → ℚ × ℚ

/-- Height `k` is one of those of the profile. -/
def Profile.Has (p : Profile) (k : ℤ) : Prop := p.base ≤ k ∧ k < p.base + p.num

instance (p : Profile) (k : ℤ) : Decidable (p.Has k) := inferInstanceAs (Decidable (_ ∧ _))

/-- Two profiles have a height in common. -/
def Profile.Meets (p q : Profile) : Prop := ∃ k, p.Has k ∧ q.Has k

/-- On the map `f` in a box of length `B` the search finds the interface of the profile, positions relative to the box; lattice height `k` is
`y0 + d * k`. -/
def Shows (o : Interface.Opts) (B y0 d : ℚ) (f : Flow) (p : Profile) : Prop :=
  ∃ s pts h, cells f.data "M" = .ok s ∧ boxSize f = some (B, h) ∧ getInterface s (some (B, h)) { o with longest := true } = .ok pts ∧
    pts.length = p.num ∧ ∀ (i : ℕ) (q : ℕ × ℕ), pts[i]? = some q →
      (row s q.1).y = y0 + d * ((p.base + i : ℤ) : ℚ) ∧
      (row s q.1).x = wrap B (p.edge (p.base + i)).1 ∧ (row s q.2).x = wrap B (p.edge (p.base + i)).2

/-- One file of the series: the two rows of height `k` (counted from the lowest one) have the true edges, moved by `c` boxes, with three
decimals. -/
def FileShows (B d : ℚ) (k c : ℤ) (p : Profile) (file : List Point) : Prop :=
  file.length = 2 * p.num ∧
  file[(k - p.base).toNat]? = some ⟨written ((p.edge k).1 - c * B), written (d * ((k - p.base : ℤ) : ℚ))⟩ ∧
  file[2 * p.num - 1 - (k - p.base).toNat]? = some ⟨written ((p.edge k).2 - c * B), written (d * ((k - p.base : ℤ) : ℚ))⟩

/-- The outline of a droplet: up along the left edge from height 0 and down along the right edge, both with the same ascending heights (in
the sense of `R`). -/
def Outline (R : ℚ → ℚ → Prop) (pts : List Point) : Prop :=
  ∃ ys : List ℚ, 2 ≤ ys.length ∧ ys.Pairwise R ∧ ys.head? = some 0 ∧ pts.map Point.y = ys ++ ys.reverse

/-- An interface moved along x. -/
def moveX (a : ℚ) (pts : List Point) : List Point := pts.map fun p => ⟨p.x + a, p.y⟩

/-- An interface moved along y. -/
def moveY (a : ℚ) (pts : List Point) : List Point := pts.map fun p => ⟨p.x, p.y + a⟩

/-- The mirror image of an interface, again from left to right. -/
def mirrored (pts : List Point) : List Point := (pts.map fun p => ⟨-p.x, p.y⟩).reverse

/-- Contribution of one side to the area of a polygon. -/
def cross (p q : Point) : ℚ := q.x * p.y - p.x * q.y

/-- Sum over the sides of a path. -/
def crossSum : List Point → ℚ
  | p :: q :: rest => cross p q + crossSum (q :: rest)
  | _ => 0

/-- Area of the closed polygon through the points, positive if they go round clockwise (shoelace formula). -/
def polygonArea : List Point → ℚ
  | [] => 0
  | p :: rest => crossSum (p :: rest ++ [p]) / 2

/-- Distance of two points. -/
noncomputable def distance (p q : Point) : ℝ := Real.sqrt (((q.x : ℝ) - p.x) ^ 2 + ((q.y : ℝ) - p.y) ^ 2)

/-- Length of the path through the points. -/
noncomputable def pathLength : List Point → ℝ
  | p :: q :: rest => distance p q + pathLength (q :: rest)
  | _ => 0

/-- Every height on the way up is met again on the way down. -/
def SameHeights (pts : List Point) : Prop := ∃ ys : List ℚ, pts.map Point.y = ys ++ ys.reverse

/-- An interface given by its layers (left edge, right edge, height), from the bottom. -/
def fromLayers (t : List (ℚ × ℚ × ℚ)) : List Point :=
  t.map (fun e => ⟨e.1, e.2.2⟩) ++ (t.map fun e => (⟨e.2.1, e.2.2⟩ : Point)).reverse

/-- The angle in degrees between the substrate, towards positive x, and the direction from `p` to `q`. -/
noncomputable def inclination (p q : Point) : ℝ :=
  Complex.arg ((((q.x : ℝ) - p.x : ℝ) : ℂ) + (((q.y : ℝ) - p.y : ℝ) : ℂ) * Complex.I) * 180 / Real.pi

/-- The direction from which the liquid is seen: mirrored for the right edge. -/
def seen (right : Bool) (p : Point) : Point := if right then ⟨-p.x, p.y⟩ else p

/-- `q` is the first point of the edge closest to the height over the base `p`. -/
def ClosestTo (edge : List Point) (p : Point) (height : ℚ) (q : Point) : Prop :=
  ∃ A B, edge = A ++ q :: B ∧ (∀ x ∈ A, |q.y - (p.y + height)| < |x.y - (p.y + height)|) ∧ ∀ x ∈ B, |q.y - (p.y + height)| ≤ |x.y - (p.y + height)|

/-- The edges of a droplet at a height. -/
def edgesAt (t : List (ℚ × ℚ × ℚ)) (y : ℚ) : Option (ℚ × ℚ) := (t.find? fun e => e.2.2 = y).map fun e => (e.1, e.2.1)

/-- Mean of numbers. -/
def mean (l : List ℚ) : ℚ := l.sum / (l.length : ℚ)

/-- `t` is the mean of the droplets `l`: it has exactly the heights common to all of them, from the bottom, and at every height the mean of the
left and the mean of the right edges. -/
def IsMean (l : List (List (ℚ × ℚ × ℚ))) (t : List (ℚ × ℚ × ℚ)) : Prop :=
  (t.map fun e => e.2.2).Pairwise (· < ·) ∧
  (∀ y, (∃ e ∈ t, e.2.2 = y) ↔ ∀ s ∈ l, ∃ e ∈ s, e.2.2 = y) ∧
  ∀ e ∈ t, ∃ es, List.Forall₂ (fun s ed => edgesAt s e.2.2 = some ed) l es ∧ e.1 = mean (es.map Prod.fst) ∧ e.2.1 = mean (es.map Prod.snd)

end Strata.InterfaceFiles
