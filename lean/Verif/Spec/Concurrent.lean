import Verif.Model.Concurrent
/-!
# Specification vocabulary for C164: commands with outputs of their own
-/
namespace Strata.Concurrent
open Strata Strata.Files Strata.Killed Strata.Bytes

/-- The paths a command may write to or move: its outputs and their backups `#name.1#`, `#name.2#`, … -/
def Cmd.Owns (c : Cmd) (q : Path) : Prop := ∃ j ∈ c.jobs, q = j.2 ∨ ∃ i, q = backupPath j.2 i

/-- The paths a command reads. -/
def Cmd.Reads (c : Cmd) (q : Path) : Prop := ∃ j ∈ c.jobs, q ∈ j.1

/-- The paths a command has to do with. -/
def Cmd.Uses (c : Cmd) (q : Path) : Prop := c.Owns q ∨ c.Reads q

/-- No command writes to paths that another one uses, and the directories of outputs exist or are made by one of them only.
(All of them may read the same files.) -/
structure Separate (cmds : ℕ → Cmd) (d : Disk) : Prop where
  paths : ∀ k k', k ≠ k' → ∀ q, (cmds k).Owns q → ¬ (cmds k').Uses q
  dirs : ∀ k k', k ≠ k' → ∀ j ∈ (cmds k).jobs, ∀ j' ∈ (cmds k').jobs, d.dirs j.2.1 = true ∨ madeBy j'.2.1 j.2.1 = false

/-- The disk before anything happens: a file is called by its own name. -/
def Disk.Initial (d : Disk) : Prop := ∀ q i, d.names q = some i → i = .orig q

/-- The process has ended. -/
def Proc.Ended (s : Proc) : Prop := s.pc = .finished ∨ ∃ e, s.pc = .failed e

end Strata.Concurrent
