import Verif.Model.GmxFlow
import Verif.Spec.Average
/-!
# Specification vocabulary for the gmx_flow_1 format
-/
namespace Strata.PyText
open Strata

/-- A number rounded to six decimals, ties to even, keeping its sign. -/
def round6 (x : ℚ) : ℚ := (if x < 0 then -1 else 1) * ((Average.pyRound (|x| * 10 ^ 6) : ℚ) / 10 ^ 6)

end Strata.PyText

namespace Strata.Gmx
open Strata Strata.Flow Strata.Average Strata.Bytes

/-- A map the writer accepts: the five fields have one value for each bin of the grid (row `t` is the bin in column
`t / ny` and row `t % ny` of the grid, i.e. x-major order). -/
def Writable (data : Record) (i : GInfo) : Prop :=
  ∀ l ∈ ["N", "T", "M", "U", "V"], ∃ c, col? data l = some c ∧ c.length = i.shape.1 * i.shape.2

/-- The rows with mass. -/
def massRows (data : Record) (i : GInfo) : List ℕ :=
  (List.range (i.shape.1 * i.shape.2)).filter fun t => decide (val data "M" t ≠ 0)

end Strata.Gmx

namespace Strata.Gmx
open Strata Strata.Flow Strata.Average Strata.Bytes

/-- The first `k` bytes of a file contain the whole 1024-byte block in which the header's NUL lies. -/
def BlockComplete (bytes : Bytes) (k : ℕ) : Prop := 1024 * (bytes.idxOf 0 / 1024 + 1) ≤ k

instance (bytes : Bytes) (k : ℕ) : Decidable (BlockComplete bytes k) := by unfold BlockComplete; infer_instance

/-- The value of a bin in a file: its single precision value if the bin has mass, else 0. -/
def stored (F : F32) (data : Record) (l : Label) (t : ℕ) : ℚ :=
  if val data "M" t ≠ 0 then F.rnd (val data l t) else 0

end Strata.Gmx
