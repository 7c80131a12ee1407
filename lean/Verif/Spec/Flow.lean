import Verif.Model.Flow
import Mathlib.Data.List.ProdSigma
/-!
# Specification vocabulary for flow maps

A record array is looked at as a list of *bins*; a bin is the list of its labelled values.
-/
namespace Strata.Flow

/-- All fields have the length of the record and different labels (what `set_data` establishes, see
`C08_constructed_is_wellformed`). -/
def Wf (r : Record) : Prop := (names r).Nodup ∧ ∀ c ∈ r, c.2.length = size r

/-- A bin: labelled values. -/
abbrev Bin := List (Label × ℚ)

/-- Bin number `i`. -/
def binAt (r : Record) (i : ℕ) : Bin := r.map fun c => (c.1, c.2.getD i 0)

/-- The bins of a record, in order. -/
def bins (r : Record) : List Bin := (List.range (size r)).map (binAt r)

/-- The value of a bin. -/
def Bin.val (b : Bin) (l : Label) : Option ℚ := b.lookup l

/-- A value lies in the closed interval; an absent bound does not restrict. -/
def Within (lo hi : Option ℚ) (v : ℚ) : Prop := (∀ a, lo = some a → a ≤ v) ∧ ∀ b, hi = some b → v ≤ b

/-- Bin `b` has a value for label `l`, in the interval. -/
def BinWithin (l : Label) (lo hi : Option ℚ) (b : Bin) : Prop := ∃ v, b.val l = some v ∧ Within lo hi v

instance (lo hi : Option ℚ) (v : ℚ) : Decidable (Within lo hi v) :=
  match lo, hi with
  | none, none => isTrue (by simp [Within])
  | some a, none => decidable_of_iff (a ≤ v) (by simp [Within])
  | none, some b => decidable_of_iff (v ≤ b) (by simp [Within])
  | some a, some b => decidable_of_iff (a ≤ v ∧ v ≤ b) (by simp [Within])

instance (l : Label) (lo hi : Option ℚ) (b : Bin) : Decidable (BinWithin l lo hi b) :=
  match h : b.val l with
  | none => isFalse (by simp [BinWithin, h])
  | some v => decidable_of_iff (Within lo hi v) (by simp [BinWithin, h])

/-- The bin centres of `r` are exactly the points of the grid `xs × ys` (in some order). -/
def IsGrid (r : Record) (xs ys : List ℚ) : Prop :=
  xs.Nodup ∧ ys.Nodup ∧
    ((bins r).map fun b => (b.val "X", b.val "Y")).Perm
      ((xs ×ˢ ys).map fun p => (some p.1, some p.2))

/-- The labelled columns one constructor argument carries. -/
def Arg.items : Arg → List (Label × List ℚ)
  | .tuple l c => [(l, c)]
  | .dict cs => cs
  | .other => []

end Strata.Flow
