import Verif.Proofs.Collecting
/-!
# Commands that collect rows at the same time: C167
-/
namespace Strata.Collecting
open Strata Strata.Files Strata.Flow Strata.Bytes Strata.Spreading Strata.SpreadingText Strata.SpreadingFiles Strata.SavedRuns Strata.Killed

/-- **C167, any moment.**  Any number of commands with outputs of their own, any schedule: each process is where it would be had it made the same number of steps with nothing else running, the files it has to do
with are the same too, and files that are nobody's output are untouched.  (Missing: commands with the same output, see the counterexample.) -/
theorem C167_any_moment_partial {τ : ℕ → Type} (cmds : ∀ k, Cmd (τ k)) (d : Disk) (hs : Separate cmds d) (schedule : List ℕ) :
    (∀ k, (run cmds d schedule).procs k = (alone (cmds k) d (schedule.count k)).2) ∧
    (∀ k q, (cmds k).Uses q → (run cmds d schedule).disk.files q = (alone (cmds k) d (schedule.count k)).1.files q) ∧
    ∀ q, (∀ k, ¬ (cmds k).Owns q) → (run cmds d schedule).disk.files q = d.files q :=
  have h := inv_run hs schedule
  ⟨h.pc, fun k => (h.agree k).files, h.rest⟩

/-- **C167, results.**  When such a command has ended, whatever the schedule and whether the others have ended or not, it ended as the call does alone, and its output and the backups of it are those of the call
alone. -/
theorem C167_results_partial (calls : ℕ → Call) (fs : FS Bytes) (dirs : Text → Bool) (hs : Separate (fun k => (calls k).cmd) (Disk.ofFS fs dirs)) (schedule : List ℕ) (k : ℕ) (outcome : Except Err Unit)
    (he : ((run (fun k => (calls k).cmd) (Disk.ofFS fs dirs) schedule).procs k).Ended outcome) :
    outcome = ((calls k).result fs).2 ∧
    ∀ q, (calls k).cmd.Owns q → (run (fun k => (calls k).cmd) (Disk.ofFS fs dirs) schedule).disk.files q = ((calls k).result fs).1.get? q := by
  obtain ⟨h1, h2, -⟩ := C167_any_moment_partial _ _ hs schedule
  obtain ⟨n, hn, hh⟩ := alone_call (calls k) fs dirs (hs.dirs k)
  have e1 : (alone (calls k).cmd (Disk.ofFS fs dirs) (schedule.count k)).2 = .ended outcome := (h1 k).symm.trans he
  have same : alone (calls k).cmd (Disk.ofFS fs dirs) (schedule.count k) = alone (calls k).cmd (Disk.ofFS fs dirs) n := by
    rcases Nat.le_total n (schedule.count k) with hle | hle
    · exact alone_stays hn _ hle
    · exact (alone_stays e1 _ hle).symm
  constructor
  · rw [same, hn] at e1
    injection e1 with e1
    exact e1.symm
  · intro q hq
    rw [h2 k q (.inl hq)]
    show (alone (calls k).cmd (Disk.ofFS fs dirs) (schedule.count k)).1.files q = _
    rw [same]
    exact hh q

/-- **C167, ends.**  Such a command ends once it has made a certain number of steps, which does not depend on the others. -/
theorem C167_ends_partial (calls : ℕ → Call) (fs : FS Bytes) (dirs : Text → Bool) (hs : Separate (fun k => (calls k).cmd) (Disk.ofFS fs dirs)) (k : ℕ) :
    ∃ n, ∀ schedule : List ℕ, n ≤ schedule.count k → ((run (fun k => (calls k).cmd) (Disk.ofFS fs dirs) schedule).procs k).Ended ((calls k).result fs).2 := by
  obtain ⟨n, hn, -⟩ := alone_call (calls k) fs dirs (hs.dirs k)
  refine ⟨n, fun schedule h => ?_⟩
  have h1 := (C167_any_moment_partial _ _ hs schedule).1 k
  unfold Pc.Ended
  rw [h1]
  show (alone (calls k).cmd (Disk.ofFS fs dirs) (schedule.count k)).2 = _
  rw [alone_stays hn _ h, hn]

/-- **C167, schedules.**  When all of them have ended, the files do not depend on the schedule. -/
theorem C167_schedules_partial (calls : ℕ → Call) (fs : FS Bytes) (dirs : Text → Bool) (hs : Separate (fun k => (calls k).cmd) (Disk.ofFS fs dirs)) (s s' : List ℕ)
    (h : ∀ k, ∃ o, ((run (fun k => (calls k).cmd) (Disk.ofFS fs dirs) s).procs k).Ended o) (h' : ∀ k, ∃ o, ((run (fun k => (calls k).cmd) (Disk.ofFS fs dirs) s').procs k).Ended o) (q : Path) :
    (run (fun k => (calls k).cmd) (Disk.ofFS fs dirs) s).disk.files q = (run (fun k => (calls k).cmd) (Disk.ofFS fs dirs) s').disk.files q := by
  by_cases hq : ∃ k, (calls k).cmd.Owns q
  · obtain ⟨k, hk⟩ := hq
    obtain ⟨o, ho⟩ := h k
    obtain ⟨o', ho'⟩ := h' k
    rw [(C167_results_partial calls fs dirs hs s k o ho).2 q hk, (C167_results_partial calls fs dirs hs s' k o' ho').2 q hk]
  · have hq' : ∀ k, ¬ (calls k).cmd.Owns q := fun k hk => hq ⟨k, hk⟩
    rw [(C167_any_moment_partial _ _ hs s).2.2 q hq', (C167_any_moment_partial _ _ hs s').2.2 q hq']

/-- **C167, outputs at any moment.**  Whoever looks at the output of such a command, while the commands run or after some of them were killed, finds the file that was there before, no file, or the first rows (and
a part of the next, see C138) of what the call alone leaves there. -/
theorem C167_watched_partial (calls : ℕ → Call) (fs : FS Bytes) (dirs : Text → Bool) (hs : Separate (fun k => (calls k).cmd) (Disk.ofFS fs dirs)) (schedule : List ℕ) (k : ℕ) :
    (run (fun k => (calls k).cmd) (Disk.ofFS fs dirs) schedule).disk.files (calls k).cmd.out = fs.get? (calls k).cmd.out ∨
    (run (fun k => (calls k).cmd) (Disk.ofFS fs dirs) schedule).disk.files (calls k).cmd.out = none ∨
    ∃ part whole, (run (fun k => (calls k).cmd) (Disk.ofFS fs dirs) schedule).disk.files (calls k).cmd.out = some part ∧
      ((calls k).result fs).1.get? (calls k).cmd.out = some whole ∧ part <+: whole := by
  obtain ⟨-, h2, -⟩ := C167_any_moment_partial _ _ hs schedule
  rw [h2 k _ (.inl (Cmd.owns_out _))]
  obtain ⟨n, hn, hh⟩ := alone_call (calls k) fs dirs (hs.dirs k)
  show (alone (calls k).cmd (Disk.ofFS fs dirs) (schedule.count k)).1.files _ = _ ∨ (alone (calls k).cmd (Disk.ofFS fs dirs) (schedule.count k)).1.files _ = _ ∨
    ∃ part whole, (alone (calls k).cmd (Disk.ofFS fs dirs) (schedule.count k)).1.files _ = _ ∧ _
  have st := alone_stage (calls k).cmd (Disk.ofFS fs dirs) (schedule.count k)
  have hg := alone_grows (calls k).cmd (Disk.ofFS fs dirs) (schedule.count k)
  have hall := alone_stays hn (schedule.count k)
  revert st hg hall
  generalize alone (calls k).cmd (Disk.ofFS fs dirs) (schedule.count k) = p
  intro st hg hall
  cases st with
  | before h _ _ _ => exact .inl h
  | moved h => exact .inr (.inl h)
  | @filled d s x h hs =>
    refine .inr (.inr ⟨x, ?_⟩)
    rcases Nat.le_total (schedule.count k) n with hle | hle
    · obtain ⟨y, hy, -⟩ := hg n hle x h hs
      exact ⟨x ++ y, h, by rw [← hh]; exact hy, x.prefix_append y⟩
    · exact ⟨x, h, by rw [← hh, ← hall hle]; exact h, List.prefix_refl x⟩

/-- **C167, when commands are separate.**  Different outputs, none of which has the name of a backup or is a file that one of the commands reads (nor is a backup of an output), in directories that exist. -/
theorem C167_separate {τ : ℕ → Type} (cmds : ∀ k, Cmd (τ k)) (d : Disk) (hout : ∀ k k', (cmds k).out = (cmds k').out → k = k')
    (hb : ∀ k k' i, (cmds k).out ≠ backupPath (cmds k').out i) (hin : ∀ k k', ∀ p ∈ (cmds k').inputs, p ≠ (cmds k).out ∧ ∀ i, p ≠ backupPath (cmds k).out i)
    (hd : ∀ k, d.dirs (cmds k).out.1 = true) : Separate cmds d := by
  refine ⟨?_, hd⟩
  rintro k k' hk q hq (h | h)
  · rcases hq with rfl | ⟨i, rfl⟩ <;> rcases h with h | ⟨j, h⟩
    · exact hk (hout _ _ h)
    · exact hb _ _ _ h
    · exact hb _ _ _ h.symm
    · exact hk (hout _ _ (Concurrent.backup_path h))
  · obtain ⟨h1, h2⟩ := hin k k' q h
    rcases hq with hq | ⟨i, hq⟩
    · exact h1 hq
    · exact h2 i hq

/-! ## Example and counterexample -/

/-- Two calls that sample the same four files, with these outputs; the second one is for all other processes too, with an output for each. -/
def exCalls (out : ℕ → Text) (k : ℕ) : Call :=
  .samples (ℕ × UInt8) KilledSeries.exItem (fun r => List.replicate (r.1 + 1) (if k = 0 then 'x' else 'y')) ["# h".toList] (out k) SpreadingFiles.exDir "a".toList [] 1 none

/-- Outputs of their own: o, oo, ooo, … -/
def exOuts (k : ℕ) : Text := List.replicate (k + 1) 'o'

theorem exOuts_path (k : ℕ) : splitPath (exOuts k) = (".".toList, exOuts k) := by
  have := splitPath_append [] (exOuts k) (by unfold exOuts; intro h; have := List.eq_of_mem_replicate h; revert this; decide)
  rw [List.nil_append] at this
  rw [this]
  rfl

/-- The hypotheses of the theorems above can be met. -/
theorem exCalls_separate (dirs : Text → Bool) (hd : dirs ".".toList = true) : Separate (fun k => (exCalls exOuts k).cmd) (Disk.ofFS KilledSeries.exSamples dirs) := by
  have head : ∀ k, (splitPath (exOuts k)).2.head? = some 'o' := fun k => by rw [exOuts_path]; rfl
  have back : ∀ p i, (backupPath p i).2.head? = some '#' := fun p i => rfl
  have hins : ∀ k, ∀ p ∈ (exCalls exOuts k).cmd.inputs, p.2.head? = some 'a' := by
    intro k p hp
    have : (exCalls exOuts k).cmd.inputs = ["a00001", "a00002", "a00003", "a00004"].map fun s => (".".toList, s.toList) := by
      have h : (yieldSingles SpreadingFiles.exDir "a".toList [] 1 none).map splitPath = ["a00001", "a00002", "a00003", "a00004"].map fun s => (".".toList, s.toList) := by decide +kernel
      exact h
    rw [this] at hp
    revert p
    decide
  apply C167_separate
  · intro k k' h
    have h' : splitPath (exOuts k) = splitPath (exOuts k') := h
    rw [exOuts_path, exOuts_path] at h'
    have := congrArg (fun p : Path => p.2.length) h'
    simpa [exOuts] using this
  · intro k k' i h
    have h1 : (splitPath (exOuts k)).2.head? = (backupPath (exCalls exOuts k').cmd.out i).2.head? := congrArg (fun p : Path => p.2.head?) h
    rw [head, back] at h1
    revert h1
    decide
  · intro k k' p hp
    have h0 := hins k' p hp
    constructor
    · rintro rfl
      have h1 : (splitPath (exOuts k)).2.head? = some 'a' := h0
      rw [head] at h1
      revert h1
      decide
    · rintro i rfl
      rw [back] at h0
      revert h0
      decide
  · intro k
    show dirs (splitPath (exOuts k)).1 = true
    rw [exOuts_path]
    exact hd

/-- Two commands that take turns, with outputs of their own: both end, and each output has the rows of its command. -/
example : ((run (fun k => (exCalls exOuts k).cmd) (Disk.ofFS KilledSeries.exSamples fun _ => true) ((List.replicate 20 [0, 1]).flatten)).procs 0).Ended (.ok ()) ∧
    ((run (fun k => (exCalls exOuts k).cmd) (Disk.ofFS KilledSeries.exSamples fun _ => true) ((List.replicate 20 [0, 1]).flatten)).procs 1).Ended (.ok ()) ∧
    (run (fun k => (exCalls exOuts k).cmd) (Disk.ofFS KilledSeries.exSamples fun _ => true) ((List.replicate 20 [0, 1]).flatten)).disk.files (splitPath "o".toList) =
      some (byteStore.encode "# h\nx\nxxx\nxxxx\n".toList) ∧
    (run (fun k => (exCalls exOuts k).cmd) (Disk.ofFS KilledSeries.exSamples fun _ => true) ((List.replicate 20 [0, 1]).flatten)).disk.files (splitPath "oo".toList) =
      some (byteStore.encode "# h\ny\nyyy\nyyyy\n".toList) := by
  refine ⟨rfl, rfl, ?_, ?_⟩ <;> decide +kernel

/-- A schedule: the second command starts when the first has written one row. -/
def exMixed : List ℕ := List.replicate 7 0 ++ List.replicate 20 1 ++ List.replicate 20 0

set_option maxRecDepth 100000 in
/-- **C167, counterexample: the same output.**  Two commands with the same output: both end without an error, but the rows that the first one writes after the second has begun are in the file of the second, after
its rows (rows are appended by name); the file of the first, now a backup, ends after its first row. -/
theorem C167_same_output_counterexample :
    ((run (fun k => (exCalls (fun _ => "out".toList) k).cmd) (Disk.ofFS KilledSeries.exSamples fun _ => true) exMixed).procs 0).Ended (.ok ()) ∧
    ((run (fun k => (exCalls (fun _ => "out".toList) k).cmd) (Disk.ofFS KilledSeries.exSamples fun _ => true) exMixed).procs 1).Ended (.ok ()) ∧
    (run (fun k => (exCalls (fun _ => "out".toList) k).cmd) (Disk.ofFS KilledSeries.exSamples fun _ => true) exMixed).disk.files (splitPath "out".toList) =
      some (byteStore.encode "# h\ny\nyyy\nyyyy\nxxx\nxxxx\n".toList) ∧
    (run (fun k => (exCalls (fun _ => "out".toList) k).cmd) (Disk.ofFS KilledSeries.exSamples fun _ => true) exMixed).disk.files (splitPath "#out.2#".toList) =
      some (byteStore.encode "# h\nx\n".toList) ∧
    ((exCalls (fun _ => "out".toList) 0).result KilledSeries.exSamples).1.get? (splitPath "out".toList) = some (byteStore.encode "# h\nx\nxxx\nxxxx\n".toList) ∧
    ((exCalls (fun _ => "out".toList) 1).result KilledSeries.exSamples).1.get? (splitPath "out".toList) = some (byteStore.encode "# h\ny\nyyy\nyyyy\n".toList) := by
  refine ⟨rfl, rfl, ?_, ?_, ?_, ?_⟩ <;> decide +kernel

end Strata.Collecting
