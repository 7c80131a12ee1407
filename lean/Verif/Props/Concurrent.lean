import Verif.Proofs.Concurrent
import Verif.Props.Killed
/-!
# Commands that run at the same time: C164
-/
namespace Strata.Concurrent
open Strata Strata.Files Strata.Killed Strata.Bytes

/-- **C164, at any moment.**  After any schedule every command is where it would be had it been alone for as many steps, what it reads and writes is the same as then, and
all other files are untouched.  (Missing: commands that write to the same files or make the same directory, see the counterexamples.) -/
theorem C164_any_moment_partial (cmds : ℕ → Cmd) (d : Disk) (hi : d.Initial) (hs : Separate cmds d) (schedule : List ℕ) :
    (∀ k, (run cmds d schedule).procs k = (alone (cmds k) k d (schedule.count k)).2) ∧
    (∀ k q, (cmds k).Uses q → (run cmds d schedule).disk.view q = (alone (cmds k) k d (schedule.count k)).1.view q) ∧
    ∀ q, (∀ k, ¬ (cmds k).Owns q) → (run cmds d schedule).disk.view q = d.view q := by
  have h := inv_run hi hs schedule
  refine ⟨h.pc, fun k q hq => (h.agree k).view (h.disk k) hq, fun q hq => ?_⟩
  unfold Disk.view
  rw [h.rest q hq]
  cases e : d.names q with
  | none => rfl
  | some i => rw [hi q i e, Option.map_some, Option.map_some, h.restData q hq]

/-- **C164, commands end.**  A command that gets enough steps ends, whatever the other ones do meanwhile. -/
theorem C164_ends_partial (cmds : ℕ → Cmd) (fs : FS Bytes) (dirs : Text → Bool) (hs : Separate cmds (Disk.ofFS fs dirs)) (k : ℕ) :
    ∃ N, ∀ schedule : List ℕ, N ≤ schedule.count k → ((run cmds (Disk.ofFS fs dirs) schedule).procs k).Ended := by
  obtain ⟨d', s, ⟨N, hN⟩, he, -⟩ := reach_jobs (cmds k) k (cmds k).jobs 0 _ fs (holds_ofFS k fs dirs)
  have hA : alone (cmds k) k (Disk.ofFS fs dirs) N = (d', s) := hN
  refine ⟨N, fun schedule hle => ?_⟩
  rw [(C164_any_moment_partial cmds _ (initial_ofFS fs dirs) hs schedule).1 k, alone_stays (by rw [hA]; exact he) _ hle, hA]
  exact he

/-- **C164, results.**  When a command has ended, its outputs and their backups are those of a run of it alone, by the model of C127 and C138: they do not depend on the schedule. -/
theorem C164_results_partial (cmds : ℕ → Cmd) (fs : FS Bytes) (dirs : Text → Bool) (hs : Separate cmds (Disk.ofFS fs dirs)) (schedule : List ℕ) (k : ℕ)
    (he : ((run cmds (Disk.ofFS fs dirs) schedule).procs k).Ended) (q : Path) (hq : (cmds k).Uses q) :
    (run cmds (Disk.ofFS fs dirs) schedule).disk.view q = (runJobs (cmds k).content (cmds k).chunks fs (cmds k).jobs).get? q := by
  obtain ⟨d', s, ⟨N, hN⟩, hE, hv⟩ := reach_jobs (cmds k) k (cmds k).jobs 0 _ fs (holds_ofFS k fs dirs)
  have hA : alone (cmds k) k (Disk.ofFS fs dirs) N = (d', s) := hN
  have h := C164_any_moment_partial cmds _ (initial_ofFS fs dirs) hs schedule
  rw [h.1 k] at he
  rw [h.2.1 k q hq, ← hv q]
  have e1 := alone_stays he (max N (schedule.count k)) (le_max_right _ _)
  have e2 := alone_stays (by rw [hA]; exact hE) (max N (schedule.count k)) (le_max_left _ _)
  rw [← e1, e2, hA]

/-- **C164, schedules.**  All schedules in which every command ends leave the same files; one of them runs the commands one after the other. -/
theorem C164_schedules_partial (cmds : ℕ → Cmd) (fs : FS Bytes) (dirs : Text → Bool) (hs : Separate cmds (Disk.ofFS fs dirs)) (s s' : List ℕ)
    (he : ∀ k, ((run cmds (Disk.ofFS fs dirs) s).procs k).Ended) (he' : ∀ k, ((run cmds (Disk.ofFS fs dirs) s').procs k).Ended) (q : Path) :
    (run cmds (Disk.ofFS fs dirs) s).disk.view q = (run cmds (Disk.ofFS fs dirs) s').disk.view q := by
  by_cases h : ∃ k, (cmds k).Owns q
  · obtain ⟨k, hk⟩ := h
    rw [C164_results_partial cmds fs dirs hs s k (he k) q (.inl hk), C164_results_partial cmds fs dirs hs s' k (he' k) q (.inl hk)]
  · have hn : ∀ k, ¬ (cmds k).Owns q := fun k hk => h ⟨k, hk⟩
    rw [(C164_any_moment_partial cmds _ (initial_ofFS fs dirs) hs s).2.2 q hn, (C164_any_moment_partial cmds _ (initial_ofFS fs dirs) hs s').2.2 q hn]

/-- **C164, nothing is lost.**  At any moment (and so if commands are killed at any moment) every file that was there at the start is still there, with all its bytes, under its name or as a backup
of an output. -/
theorem C164_nothing_lost_partial (cmds : ℕ → Cmd) (d : Disk) (hi : d.Initial) (hs : Separate cmds d) (schedule : List ℕ) (q0 : Path) (b : Bytes) (h0 : d.view q0 = some b) :
    ∃ q, (run cmds d schedule).disk.view q = some b ∧ (q = q0 ∨ ∃ k, ∃ j ∈ (cmds k).jobs, ∃ i, q = backupPath j.2 i) := by
  have h := C164_any_moment_partial cmds d hi hs schedule
  by_cases hq : ∃ k, (cmds k).Owns q0
  · obtain ⟨k, hk⟩ := hq
    obtain ⟨k1, k2, -⟩ := alone_kept hi (cmds k) k (schedule.count k)
    have e0 : d.names q0 = some (.orig q0) := by
      unfold Disk.view at h0
      cases e : d.names q0 with
      | none => rw [e] at h0; cases h0
      | some i => rw [hi q0 i e]
    obtain ⟨q, e, hor⟩ := k1 q0 e0
    have hu : (cmds k).Owns q := by
      rcases hor with rfl | ⟨out, i, ho, rfl⟩
      · exact hk
      · exact ho.backup i
    refine ⟨q, ?_, ?_⟩
    · rw [h.2.1 k q (.inl hu)]
      unfold Disk.view
      rw [e, Option.map_some, k2]
      unfold Disk.view at h0
      rw [e0] at h0
      exact h0
    · rcases hor with rfl | ⟨out, i, ⟨j, hj, rfl⟩, rfl⟩
      · exact .inl rfl
      · exact .inr ⟨k, j, hj, i, rfl⟩
  · exact ⟨q0, by rw [h.2.2 q0 fun k hk => hq ⟨k, hk⟩, h0], .inl rfl⟩

/-! ## Commands with different outputs -/

theorem decimal_nodot (n : ℕ) : '.' ∉ decimal n := by
  have key : ∀ (s : Text) (a r : ℕ), Spec.readDigits a s = some r → '.' ∉ s := by
    intro s
    induction s with
    | nil => simp
    | cons c cs ih =>
      intro a r hr
      simp only [Spec.readDigits] at hr
      rcases hc : Spec.digitValue c with _ | d
      · simp [hc] at hr
      · rw [hc] at hr
        simp only [List.mem_cons, not_or]
        exact ⟨by rintro rfl; simp [Spec.digitValue] at hc, ih _ _ hr⟩
  have h := readNumeral_padded 0 n
  have e : padded 0 n = decimal n := by simp [padded]
  rw [e] at h
  unfold Spec.readNumeral at h
  split at h
  · simp at h
  · exact key _ _ _ h

theorem last_dot : ∀ (a b x y : Text), '.' ∉ x → '.' ∉ y → a ++ '.' :: x = b ++ '.' :: y → a = b
  | [], [], _, _, _, _, _ => rfl
  | [], c :: b, x, y, hx, _, h => by
    simp only [List.nil_append, List.cons_append, List.cons.injEq] at h
    exact absurd (by rw [h.2]; simp) hx
  | c :: a, [], x, y, _, hy, h => by
    simp only [List.nil_append, List.cons_append, List.cons.injEq] at h
    exact absurd (by rw [← h.2]; simp) hy
  | c :: a, c' :: b, x, y, hx, hy, h => by
    simp only [List.cons_append, List.cons.injEq] at h
    rw [h.1, last_dot a b x y hx hy h.2]

/-- Different files have different backups. -/
theorem backup_path {p p' : Path} {i i' : ℕ} (h : backupPath p i = backupPath p' i') : p = p' := by
  simp only [backupPath, Prod.mk.injEq, List.cons_append, List.cons.injEq, true_and] at h
  obtain ⟨h1, h2⟩ := h
  rw [List.append_cancel_right_eq] at h2
  exact Prod.ext h1 (last_dot _ _ _ _ (decimal_nodot i) (decimal_nodot i') h2)

/-- **C164, who is separate.**  Commands are separate if none of their outputs is an output or input of another one, inputs and outputs are not named like backups, and the directories of outputs exist. -/
theorem C164_separate (cmds : ℕ → Cmd) (d : Disk)
    (hout : ∀ k k', k ≠ k' → ∀ j ∈ (cmds k).jobs, ∀ j' ∈ (cmds k').jobs, j.2 ≠ j'.2 ∧ j.2 ∉ j'.1)
    (hname : ∀ k, ∀ j ∈ (cmds k).jobs, ∀ p i, j.2 ≠ backupPath p i ∧ backupPath p i ∉ j.1)
    (hdir : ∀ k, ∀ j ∈ (cmds k).jobs, d.dirs j.2.1 = true) : Separate cmds d := by
  refine ⟨?_, fun k k' _ j hj j' _ => .inl (hdir k j hj)⟩
  rintro k k' hk q ⟨j, hj, rfl | ⟨i, rfl⟩⟩ hu
  · rcases hu with ⟨j', hj', e | ⟨i, e⟩⟩ | ⟨j', hj', e⟩
    · exact (hout k k' hk j hj j' hj').1 e
    · exact (hname k j hj _ i).1 e
    · exact (hout k k' hk j hj j' hj').2 e
  · rcases hu with ⟨j', hj', e | ⟨i', e⟩⟩ | ⟨j', hj', e⟩
    · exact (hname k' j' hj' _ i).1 e.symm
    · exact (hout k k' hk j hj j' hj').1 (backup_path e)
    · exact (hname k' j' hj' _ i).2 e

/-- A command reads files numbered with one base and extension, and writes such files with other ones. -/
structure Numbered (c : Cmd) (base ext output outext : Text) : Prop where
  reads : ∀ j ∈ c.jobs, ∀ q ∈ j.1, ∃ n, q = splitPath (fileName base ext n)
  writes : ∀ j ∈ c.jobs, ∃ n, j.2 = splitPath (fileName output outext n)

/-- **C164, average and convert** read and write such series, whatever the files are and whatever is listed. -/
theorem C164_average_numbered (read : Bytes → Except Err Driver.Map) (write : Flow.Record → Driver.DInfo → Option Bytes × Except Err Unit) (chunks : Bytes → List Bytes)
    (edges : Flow.Flow → Except Err (Option ℚ × Option ℚ)) (o : Driver.Opts) (dir : Dir) (base output ext : Text) (outext : Option Text) (group : ℕ) (hg : 1 ≤ group) (rolling : Bool)
    (b : ℤ) (e : Option ℤ) :
    Numbered (averageCmd read write chunks edges o dir base output ext outext group rolling b e) base ext output (outext.getD ext) := by
  obtain ⟨start, -, -, k, -, h⟩ := C05_group_numbering dir base output ext outext group hg rolling b e
  obtain ⟨k', h', -⟩ := C03_groups dir base ext group hg rolling b e
  constructor
  · intro j hj q hq
    simp only [averageCmd, averageJobs, List.mem_map] at hj
    obtain ⟨io, hio, rfl⟩ := hj
    rw [h] at hio
    have := (List.of_mem_zip (show (io.1, io.2) ∈ _ from hio)).1
    rw [h'] at this
    obtain ⟨i, -, hi⟩ := List.mem_map.mp this
    simp only [List.mem_map] at hq
    obtain ⟨f, hf, rfl⟩ := hq
    rw [← hi] at hf
    obtain ⟨m, -, rfl⟩ := List.mem_map.mp hf
    exact ⟨_, rfl⟩
  · intro j hj
    simp only [averageCmd, averageJobs, List.mem_map] at hj
    obtain ⟨io, hio, rfl⟩ := hj
    rw [h] at hio
    have := (List.of_mem_zip (show (io.1, io.2) ∈ _ from hio)).2
    obtain ⟨i, -, hi⟩ := List.mem_map.mp this
    exact ⟨start + i, by rw [← hi]⟩

theorem C164_convert_numbered (F : F32) (ftype : String) (chunks : Bytes → List Bytes) (dir : Dir) (base output ext : Text) (outext : Option Text) (b : ℤ) (e : Option ℤ) :
    Numbered (convertCmd F ftype chunks dir base output ext outext b e) base ext output (outext.getD ext) := by
  obtain ⟨k, h, -⟩ := C02_discovery_maximal_prefix dir base ext b e
  have hj := convertJobs_eq (output := output) (outext := outext) h
  constructor
  · intro j hj' q hq
    rw [show (convertCmd F ftype chunks dir base output ext outext b e).jobs = _ from hj] at hj'
    obtain ⟨i, -, rfl⟩ := List.mem_map.mp hj'
    exact ⟨b + i, List.mem_singleton.mp hq⟩
  · intro j hj'
    rw [show (convertCmd F ftype chunks dir base output ext outext b e).jobs = _ from hj] at hj'
    obtain ⟨i, -, rfl⟩ := List.mem_map.mp hj'
    exact ⟨b + i, rfl⟩

/-- **C164, series.**  Commands on numbered files are separate if no file of the output series of one of them belongs to the input or output series of another one, the extensions are not those of backups, and
the directories of the outputs exist. -/
theorem C164_series_separate (cmds : ℕ → Cmd) (d : Disk) (base ext output outext : ℕ → Text) (hn : ∀ k, Numbered (cmds k) (base k) (ext k) (output k) (outext k))
    (hx : ∀ k, '/' ∉ ext k ∧ (ext k).getLast? ≠ some '#' ∧ '/' ∉ outext k ∧ (outext k).getLast? ≠ some '#')
    (hd : ∀ k k', k ≠ k' → (cmds k).jobs ≠ [] → (cmds k').jobs ≠ [] → ∀ m n, splitPath (fileName (output k) (outext k) m) ≠ splitPath (fileName (output k') (outext k') n) ∧
      splitPath (fileName (output k) (outext k) m) ≠ splitPath (fileName (base k') (ext k') n))
    (hdir : ∀ k n, (cmds k).jobs ≠ [] → d.dirs (splitPath (fileName (output k) (outext k) n)).1 = true) : Separate cmds d := by
  apply C164_separate
  · intro k k' hk j hj j' hj'
    obtain ⟨m, e⟩ := (hn k).writes j hj
    obtain ⟨n, e'⟩ := (hn k').writes j' hj'
    have n1 := List.ne_nil_of_mem hj
    have n2 := List.ne_nil_of_mem hj'
    refine ⟨by rw [e, e']; exact (hd k k' hk n1 n2 m n).1, fun hm => ?_⟩
    obtain ⟨n', e''⟩ := (hn k').reads j' hj' _ hm
    exact (hd k k' hk n1 n2 m n').2 (by rw [← e, e''])
  · intro k j hj p i
    obtain ⟨m, e⟩ := (hn k).writes j hj
    refine ⟨by rw [e]; exact not_backup _ _ _ (hx k).2.2.1 (hx k).2.2.2 p i, fun hm => ?_⟩
    obtain ⟨n, e'⟩ := (hn k).reads j hj _ hm
    exact not_backup _ _ _ (hx k).1 (hx k).2.1 p i e'.symm
  · intro k j hj
    obtain ⟨m, e⟩ := (hn k).writes j hj
    rw [e]
    exact hdir k m (List.ne_nil_of_mem hj)

/-- Two conversions of the same files, whatever these are and whatever is listed, to files with the same names in two directories: their results do not depend on the schedule. -/
def exConvert (F : F32) (chunks : Bytes → List Bytes) (dir : Dir) (ftype : ℕ → String) : ℕ → Cmd
  | 0 => convertCmd F (ftype 0) chunks dir "f_".toList "one/f_".toList ".dat".toList none 1 none
  | 1 => convertCmd F (ftype 1) chunks dir "f_".toList "two/f_".toList ".dat".toList none 1 none
  | _ => ⟨fun _ => .error .osError, chunks, []⟩

theorem exConvert_separate (F : F32) (chunks : Bytes → List Bytes) (dir : Dir) (ftype : ℕ → String) (fs : FS Bytes) :
    Separate (exConvert F chunks dir ftype) (Disk.ofFS fs fun x => decide (x ∈ ["one".toList, "two".toList, ".".toList])) := by
  have e1 : ∀ (o : Text) (n : ℤ), (splitPath (fileName o ".dat".toList n)).1 = (splitPath o).1 := by
    intro o n
    unfold fileName
    rw [List.append_assoc, splitPath_append _ _ (by simp [Driver.fmt05_noslash])]
  apply C164_series_separate _ _ (fun _ => "f_".toList) (fun _ => ".dat".toList) (fun k => if k = 0 then "one/f_".toList else "two/f_".toList) (fun _ => ".dat".toList)
  · rintro (_ | _ | k)
    · exact C164_convert_numbered F (ftype 0) chunks dir _ _ _ none 1 none
    · exact C164_convert_numbered F (ftype 1) chunks dir _ _ _ none 1 none
    · exact ⟨by simp [exConvert], by simp [exConvert]⟩
  · intro k
    refine ⟨?_, ?_, ?_, ?_⟩ <;> decide
  · intro k k' hk n1 n2 m n
    rcases k with _ | _ | k
    · rcases k' with _ | _ | k'
      · exact absurd rfl hk
      · constructor <;> intro e <;> replace e := congrArg Prod.fst e <;> simp only [e1] at e <;> revert e <;> decide
      · exact absurd rfl n2
    · rcases k' with _ | _ | k'
      · constructor <;> intro e <;> replace e := congrArg Prod.fst e <;> simp only [e1] at e <;> revert e <;> decide
      · exact absurd rfl hk
      · exact absurd rfl n2
    · exact absurd rfl n1
  · intro k n _
    simp only [Disk.ofFS, e1]
    rcases k with _ | k
    · decide
    · simp only [Nat.add_eq_zero_iff, one_ne_zero, and_false, if_false]
      decide

/-! ## Examples and counterexamples -/

/-- A command that copies files, in pieces of one byte. -/
def copies (jobs : List Job) : Cmd := ⟨fun cs => match cs with | [some c] => .ok c | _ => .error .osError, fun b => b.map fun x => [x], jobs⟩

/-- Two commands that copy files at the same time. -/
def exTwo (a b : List Job) : ℕ → Cmd
  | 0 => copies a
  | 1 => copies b
  | _ => copies []

/-- A path in the working directory. -/
def here (s : String) : Path := (".".toList, s.toList)

/-- Files to copy, and an old output. -/
def exFS : FS Bytes := [(here "a", [1, 2]), (here "b", [3]), (here "x", [7]), (here "y", [8, 9])]

/-- Two commands, with two rounds and one, both reading file a, with outputs of their own. -/
def exSep : ℕ → Cmd := exTwo [([here "a"], here "x"), ([here "b"], here "z")] [([here "a"], here "y")]

theorem exSep_separate : Separate exSep (Disk.ofFS exFS fun _ => true) := by
  apply C164_separate
  · intro k k' hk j hj j' hj'
    rcases k with _ | _ | k <;> rcases k' with _ | _ | k' <;>
      simp only [exSep, exTwo, copies, List.mem_cons, List.not_mem_nil, or_false] at hj hj' <;> (try exact absurd rfl hk)
    · rcases hj with rfl | rfl <;> subst hj' <;> decide
    · rcases hj' with rfl | rfl <;> subst hj <;> decide
  · have nb : ∀ (s : String) (p : Path) (i : ℕ), s.toList.head? ≠ some '#' → here s ≠ backupPath p i := by
      intro s p i hs e
      apply hs
      have := congrArg (fun p : Path => p.2.head?) e
      simpa [here, backupPath] using this
    intro k j hj p i
    rcases k with _ | _ | k <;> simp only [exSep, exTwo, copies, List.mem_cons, List.not_mem_nil, or_false] at hj
    · rcases hj with rfl | rfl <;>
        exact ⟨nb _ p i (by decide), by rw [List.mem_singleton]; exact fun e => nb _ p i (by decide) e.symm⟩
    · subst hj
      exact ⟨nb _ p i (by decide), by rw [List.mem_singleton]; exact fun e => nb _ p i (by decide) e.symm⟩
  · intro _ _ _; rfl

/-- A schedule in which the steps of the two commands alternate: both end, and the files are those of C164. -/
example : ((run exSep (Disk.ofFS exFS fun _ => true) ((List.replicate 20 [0, 1]).flatten)).procs 0).pc = .finished ∧
    ((run exSep (Disk.ofFS exFS fun _ => true) ((List.replicate 20 [0, 1]).flatten)).procs 1).pc = .finished ∧
    ["a", "b", "x", "y", "z", "#x.1#", "#y.1#", "#z.1#"].map (fun s => (run exSep (Disk.ofFS exFS fun _ => true) ((List.replicate 20 [0, 1]).flatten)).disk.view (here s)) =
      [some [1, 2], some [3], some [1, 2], some [1, 2], some [3], some [7], some [8, 9], none] := by
  refine ⟨?_, ?_, ?_⟩ <;> decide +kernel

/-- Two commands with the same output, from different inputs. -/
def exClash : ℕ → Cmd := exTwo [([here "a"], here "x")] [([here "b"], here "x")]

/-- Both look for a free name of the backup before one of them moves the old file; then the first command writes its output and the second one moves that
file to the same name. -/
def exClashSchedule : List ℕ := [0, 0, 0, 0, 0, 1, 1, 1, 1, 1, 0, 0, 0, 0, 0, 1, 1, 1, 1]

/-- **C164, counterexample: the same output.**  Two commands with the same output that run at the same time: both end without an error, but the file that was there at the start is lost: no name has its bytes. -/
theorem C164_same_output_counterexample : (∀ k, ((run exClash (Disk.ofFS exFS fun _ => true) exClashSchedule).procs k).pc = .finished) ∧
    (Disk.ofFS exFS fun _ => true).view (here "x") = some [7] ∧ ∀ q, (run exClash (Disk.ofFS exFS fun _ => true) exClashSchedule).disk.view q ≠ some [7] := by
  refine ⟨?_, by decide +kernel, ?_⟩
  · rintro (_ | _ | k)
    · decide +kernel
    · decide +kernel
    · rfl
  · intro q
    have e : (run exClash (Disk.ofFS exFS fun _ => true) exClashSchedule).disk.names = Function.update (Function.update (Function.update (Function.update (Function.update
        (Function.update (Disk.ofFS exFS fun _ => true).names (here "x") none) (here "#x.1#") (some (.orig (here "x")))) (here "x") (some (.made 0 0)))
        (here "x") none) (here "#x.1#") (some (.made 0 0))) (here "x") (some (.made 1 0)) := rfl
    by_cases h1 : q = here "x"
    · subst h1; decide +kernel
    by_cases h2 : q = here "#x.1#"
    · subst h2; decide +kernel
    by_cases h3 : q = here "a"
    · subst h3; decide +kernel
    by_cases h4 : q = here "b"
    · subst h4; decide +kernel
    by_cases h5 : q = here "y"
    · subst h5; decide +kernel
    have e' : (run exClash (Disk.ofFS exFS fun _ => true) exClashSchedule).disk.names q = none := by
      rw [e]
      simp only [Function.update_apply, if_neg h1, if_neg h2, Disk.ofFS]
      rw [if_neg]
      rw [exists?_iff_mem]
      simp only [exFS, List.map_cons, List.map_nil, List.mem_cons, List.not_mem_nil, or_false, not_or]
      exact ⟨h3, h4, h1, h5⟩
    unfold Disk.view
    rw [e']
    rintro ⟨⟩

/-- Both have found the same name for the backup, and the file is moved away by the first one: a schedule that ends the second command with an error. -/
def exClashFails : List ℕ := [0, 0, 0, 0, 0, 1, 1, 1, 1, 1, 0, 1]

/-- **C164, counterexample: the file is gone.**  With the same output a command may also end with an error (`os.rename` does not find the file). -/
theorem C164_gone_counterexample :
    ((run exClash (Disk.ofFS exFS fun _ => true) exClashFails).procs 1).pc = .failed .osError ∧ ∀ n, (alone (exClash 1) 1 (Disk.ofFS exFS fun _ => true) n).2.pc ≠ .failed .osError := by
  refine ⟨by decide +kernel, ?_⟩
  have he : (alone (exClash 1) 1 (Disk.ofFS exFS fun _ => true) 12).2.pc = .finished := by decide +kernel
  intro n
  by_cases hn : n ≤ 12
  · have : ∀ n : ℕ, n < 13 → (alone (exClash 1) 1 (Disk.ofFS exFS fun _ => true) n).2.pc ≠ .failed .osError := by decide +kernel
    exact this n (by omega)
  · rw [alone_stays (n := 12) (.inl he) n (by omega), he]
    rintro ⟨⟩

/-- Two commands with different outputs in a new directory. -/
def exNewDir : ℕ → Cmd := exTwo [([here "a"], ("out".toList, "x".toList))] [([here "b"], ("out".toList, "y".toList))]

/-- **C164, counterexample: a new directory.**  Two commands with different outputs in a directory that does not exist: if both find that it is missing before one of them makes it, the other one ends with an error
and writes nothing, although its output file is its own. -/
theorem C164_new_directory_counterexample :
    (∀ k k', k ≠ k' → ∀ q, (exNewDir k).Owns q → ¬ (exNewDir k').Uses q) ∧
    ((run exNewDir (Disk.ofFS exFS fun x => decide (x = ".".toList)) ([0, 0, 0, 1, 1, 1] ++ List.replicate 9 0 ++ List.replicate 9 1)).procs 1).pc = .failed .osError ∧
    ((run exNewDir (Disk.ofFS exFS fun x => decide (x = ".".toList)) ([0, 0, 0, 1, 1, 1] ++ List.replicate 9 0 ++ List.replicate 9 1)).procs 0).pc = .finished ∧
    ((run exNewDir (Disk.ofFS exFS fun x => decide (x = ".".toList)) (List.replicate 9 0 ++ List.replicate 9 1)).procs 1).pc = .finished := by
  refine ⟨?_, ?_, ?_, ?_⟩
  · have nb : ∀ (d s : String) (p : Path) (i : ℕ), s.toList.head? ≠ some '#' → (d.toList, s.toList) ≠ backupPath p i := by
      intro d s p i hs e
      apply hs
      have := congrArg (fun p : Path => p.2.head?) e
      simpa [backupPath] using this
    have := C164_separate exNewDir (Disk.ofFS exFS fun _ => true) ?_ ?_ fun _ _ _ => rfl
    · exact this.paths
    · intro k k' hk j hj j' hj'
      rcases k with _ | _ | k <;> rcases k' with _ | _ | k' <;>
        simp only [exNewDir, exTwo, copies, List.mem_cons, List.not_mem_nil, or_false] at hj hj' <;> (try exact absurd rfl hk)
      · subst hj; subst hj'; decide
      · subst hj; subst hj'; decide
    · intro k j hj p i
      rcases k with _ | _ | k <;> simp only [exNewDir, exTwo, copies, List.mem_cons, List.not_mem_nil, or_false] at hj
      all_goals
        subst hj
        exact ⟨nb _ _ p i (by decide), by rw [List.mem_singleton]; exact fun e => nb _ _ p i (by decide) e.symm⟩
  all_goals decide +kernel

end Strata.Concurrent
