import Verif.Model.Files
/-!
# Specification vocabulary for series that go on
-/
namespace Strata.Files
open Strata

/-- More files are there, and the search does not end earlier. -/
structure GoesOn (dir dir' : Dir) (e e' : Option ℤ) : Prop where
  files : ∀ n ∈ dir, n ∈ dir'
  last : ∀ m', e' = some m' → ∃ m, e = some m ∧ m ≤ m'

end Strata.Files
