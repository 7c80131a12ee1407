import Verif.Model.Driver
import Verif.Spec.Average
import Verif.Spec.Resample
/-!
# Specification vocabulary for the averaging of a series
-/
namespace Strata.Driver
open Strata Strata.Flow Strata.Average Strata.Files

variable {γ : Type}

/-- The number of the first frame of group `i`. -/
def firstFrame (b : ℤ) (g : ℕ) (rolling : Bool) (i : ℕ) : ℤ := b + i * (if rolling then 1 else g : ℕ)

/-- The names of the files of group `i`. -/
def groupFiles (base ext : Text) (b : ℤ) (g : ℕ) (rolling : Bool) (i : ℕ) : List Text :=
  (List.range g).map fun j : ℕ => fileName base ext (firstFrame b g rolling i + j)

/-- All files of group `i` exist, with numbers up to the last one asked for. -/
def Complete (dir : Dir) (base ext : Text) (b : ℤ) (e : Option ℤ) (g : ℕ) (rolling : Bool) (i : ℕ) : Prop :=
  ∀ j : ℕ, j < g → fileName base ext (firstFrame b g rolling i + j) ∈ dir ∧ ∀ m, e = some m → firstFrame b g rolling i + j ≤ m

/-- `maps` is what the reader returns for the files with these names. -/
def ReadsAs (read : γ → Except Err Map) (fs : FS γ) (files : List Text) (maps : List Map) : Prop :=
  List.Forall₂ (fun f m => ∃ c, fs.get? (splitPath f) = some c ∧ read c = .ok m) files maps

/-- No option that changes the maps. -/
def Plain (o : Opts) : Prop :=
  o.xlim = (none, none) ∧ o.ylim = (none, none) ∧ o.recenter = none ∧ o.combine = none ∧ o.supersample = none

/-- All fields of the map have as many values as the information tells. -/
def Consistent (d : Record) (i : DInfo) : Prop := ∀ c ∈ d, c.2.length = i.shape.1 * i.shape.2

/-! ## Recentring -/

/-- A map on a grid of `nx` by `ny` bins with its first bin at `(o, y0)`, and the position to recentre it at. -/
structure Placed where
  d : Record
  c : ℚ
  o : ℚ
  y0 : ℚ
  nx : ℕ
  ny : ℕ

/-- By how many columns a map with columns `h` apart is moved to the left. -/
def Placed.shift (h : ℚ) (p : Placed) : ℤ := pyRound ((p.c - p.o) / h)

/-- The first column of the moved map. -/
def Placed.lo (h : ℚ) (p : Placed) : ℚ := p.o - h * p.shift h

/-- The last column of the moved map. -/
def Placed.hi (h : ℚ) (p : Placed) : ℚ := p.lo h + h * ((p.nx : ℚ) - 1)

/-- Maps of `n` bins each, in at least two columns, on grids with the same spacing and columns that coincide. -/
def Aligned (h hy x00 : ℚ) (n : ℕ) (ms : List Placed) : Prop :=
  ∀ p ∈ ms, Resample.FullGrid p.d (h, hy) p.o p.y0 p.nx p.ny ∧ 2 ≤ p.nx ∧ Flow.size p.d = n ∧ ∃ k : ℤ, p.o = x00 + h * k

/-- `a` is the greatest of the first columns of the moved maps. -/
def FirstCommon (h : ℚ) (ms : List Placed) (a : ℚ) : Prop := (∃ p ∈ ms, p.lo h = a) ∧ ∀ p ∈ ms, p.lo h ≤ a

/-- `b` is the least of the last columns of the moved maps. -/
def LastCommon (h : ℚ) (ms : List Placed) (b : ℚ) : Prop := (∃ p ∈ ms, p.hi h = b) ∧ ∀ p ∈ ms, b ≤ p.hi h

end Strata.Driver
