import Verif.Spec.Concurrent
/-!
# Specification vocabulary for C166: commands whose outputs can be watched
-/
namespace Strata.Concurrent
open Strata Strata.Files Strata.Killed Strata.Bytes

/-- A command that writes each output once, calls no output like the backup of another one, and reads none of its own files. -/
structure Cmd.Tidy (c : Cmd) : Prop where
  once : (c.jobs.map Prod.snd).Nodup
  names : ∀ j ∈ c.jobs, ∀ j' ∈ c.jobs, ∀ i, j.2 ≠ backupPath j'.2 i
  reads : ∀ q, c.Reads q → ¬ c.Owns q

/-- The complete file that a round writes, given the files at the start. -/
def Cmd.Writes (c : Cmd) (d0 : Disk) (j : Job) (b : Bytes) : Prop := ∃ x, c.content (j.1.map d0.view) = .ok x ∧ b = (c.chunks x).flatten

end Strata.Concurrent
