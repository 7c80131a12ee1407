import Verif.Model.Collecting
/-!
# Specification vocabulary for C167: commands that collect rows
-/
namespace Strata.Collecting
open Strata Strata.Files Strata.Flow Strata.Bytes Strata.Spreading Strata.SpreadingText Strata.SpreadingFiles Strata.SavedRuns

/-- The paths a command may write to or move: its output and the backups of it. -/
def Cmd.Owns {τ : Type} (c : Cmd τ) (q : Path) : Prop := q = c.out ∨ ∃ i, q = backupPath c.out i

/-- The paths a command has to do with. -/
def Cmd.Uses {τ : Type} (c : Cmd τ) (q : Path) : Prop := c.Owns q ∨ q ∈ c.inputs

/-- No command writes to paths that another one uses, and the directories of the outputs exist.  (All of them may read the same files.) -/
structure Separate {τ : ℕ → Type} (cmds : ∀ k, Cmd (τ k)) (d : Disk) : Prop where
  paths : ∀ k k', k ≠ k' → ∀ q, (cmds k).Owns q → ¬ (cmds k').Uses q
  dirs : ∀ k, d.dirs (cmds k).out.1 = true

/-- The process has ended, in this way. -/
def Pc.Ended {τ : Type} (s : Pc τ) (outcome : Except Err Unit) : Prop := s = .ended outcome

/-- The disk with these files and directories. -/
def Disk.ofFS (fs : FS Bytes) (dirs : Text → Bool) : Disk := ⟨fs.get?, dirs⟩

/-- The calls of this property, with their arguments. -/
inductive Call : Type 1 where
  /-- `sample_interfaces`, `sample_average_files` -/
  | samples (ρ : Type) (item : ℕ → Option Bytes → Item ρ) (line : ρ → Text) (head : List Text) (out : Text) (dir : Dir) (base ext : Text) (begin_ : ℤ) (end_ : Option ℤ)
  /-- `collect` of spreading data -/
  | curve (read : Bytes → Except Err Flow) (h : Header) (out : Text) (o : CollectOpts) (flag : Bool) (dir : Dir) (base ext : Text) (begin_ : ℤ) (end_ : Option ℤ)

/-- What a process of this call remembers from file to file. -/
def Call.State : Call → Type
  | .samples .. => Unit
  | .curve .. => Spreading.State

/-- The process of the call. -/
def Call.cmd : (c : Call) → Cmd c.State
  | .samples _ item line head out dir base ext b e => sampleCmd item line head out dir base ext b e
  | .curve read h out o flag dir base ext b e => collectCmd read h out o flag dir base ext b e

/-- What the call does when nothing else runs, by the models of C123 and C121: the files afterwards and how it ends. -/
def Call.result (fs : FS Bytes) : Call → FS Bytes × Except Err Unit
  | .samples _ item line head out dir base ext b e => ((SavedRuns.run item line byteStore head (some out) fs dir base ext b e).1, (SavedRuns.run item line byteStore head (some out) fs dir base ext b e).2.2)
  | .curve read h out o flag dir base ext b e =>
    ((collectFiles read byteStore h (some out) o flag fs dir base ext b e).fs, (collectFiles read byteStore h (some out) o flag fs dir base ext b e).outcome)

end Strata.Collecting
