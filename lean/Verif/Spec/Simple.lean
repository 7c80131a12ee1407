import Verif.Model.Simple
import Verif.Spec.Average
/-!
# Specification vocabulary for the simple formats
-/
namespace Strata.Simple
open Strata Strata.Flow Strata.Bytes

/-- The bytes are the UTF-8 encoding of some text. -/
def ValidUtf8 (b : Bytes) : Prop := ∃ s : List Char, b = s.flatMap String.utf8EncodeChar

end Strata.Simple

namespace Strata.Simple
open Strata Strata.Flow Strata.Average Strata.Bytes Strata.PyText

/-- The rows of the record are the bins of a grid, column after column (the order of the reader): row `t` is the bin in
column `t / ny` and row `t % ny` of the grid, whose lowest bin is at `(x0, y0)`. -/
structure XMajor (r : Record) (sp : ℚ × ℚ) (x0 y0 : ℚ) (nx ny : ℕ) : Prop where
  cols : ∀ l ∈ ["X", "Y", "N", "T", "M", "U", "V"], ∃ c, col? r l = some c ∧ c.length = nx * ny
  x : ∀ t, t < nx * ny → val r "X" t = x0 + sp.1 * ((t / ny : ℕ) : ℚ)
  y : ∀ t, t < nx * ny → val r "Y" t = y0 + sp.2 * ((t % ny : ℕ) : ℚ)

/-- A word of a table: printable, without spaces and comment signs. -/
def Word (w : Text) : Prop := w ≠ [] ∧ ∀ c ∈ w, 33 ≤ c.toNat ∧ c.toNat ≤ 126 ∧ c ≠ '#'

/-- The text of a table: a line of names and lines of values, words separated by single spaces. -/
def tableText (names : List Text) (rows : List (List Text)) : Text :=
  (names :: rows).flatMap fun ws => ([' '].intercalate ws) ++ ['\n']

end Strata.Simple
