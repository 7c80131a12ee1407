import Verif.Proofs.Watched
import Verif.Props.Concurrent
import Verif.Props.SimpleCut
/-!
# Files that are looked at while commands run: C166
-/
namespace Strata.Concurrent
open Strata Strata.Files Strata.Killed Strata.Bytes

/-- **C166, outputs.**  Any number of commands with outputs of their own, any schedule, any moment (also after some of them were killed): at the path of an output there is the file of the start, no file, or
the first part of the file that the round of this output writes, which depends on the files of the start only. -/
theorem C166_outputs_partial (cmds : ℕ → Cmd) (d : Disk) (hi : d.Initial) (hs : Separate cmds d) (schedule : List ℕ) (k : ℕ) (ht : (cmds k).Tidy) (j : Job) (hj : j ∈ (cmds k).jobs) :
    (run cmds d schedule).disk.view j.2 = d.view j.2 ∨ (run cmds d schedule).disk.view j.2 = none ∨
      ∃ whole part, (cmds k).Writes d j whole ∧ (run cmds d schedule).disk.view j.2 = some part ∧ part <+: whole := by
  have hout : IsOut (cmds k) j.2 := ⟨j, hj, rfl⟩
  rw [(C164_any_moment_partial cmds d hi hs schedule).2.1 k j.2 (.inl hout.owns)]
  have w := alone_watched hi (cmds k) ht k (schedule.count k)
  generalize alone (cmds k) k d (schedule.count k) = x at w
  unfold Disk.view
  cases e : x.1.names j.2 with
  | none => exact .inr (.inl rfl)
  | some i =>
    cases i with
    | orig p =>
      obtain ⟨e0, hor⟩ := w.orig _ _ e
      obtain rfl : j.2 = p := by
        rcases hor with h | ⟨i, hp, h⟩
        · exact h
        · exact absurd h (not_backup_of ht hout hp i)
      left
      rw [e0, Option.map_some, Option.map_some, w.data]
    | made p m =>
      obtain ⟨rfl, -, j', b, hj', ho, hw, hp⟩ := w.made _ _ _ e
      right; right
      obtain ⟨m', hm'⟩ := List.getElem?_of_mem hj
      have := same_job ht hm' hj' ho
      subst this
      rw [hm'] at hj'
      injection hj' with hj'
      subst hj'
      exact ⟨b, _, hw, rfl, hp⟩

/-- **C166, backups.**  At the path of a backup of an output there is, at any moment, what was there at the start or the complete file that was at the path of the output at the start. -/
theorem C166_backups_partial (cmds : ℕ → Cmd) (d : Disk) (hi : d.Initial) (hs : Separate cmds d) (schedule : List ℕ) (k : ℕ) (ht : (cmds k).Tidy) (j : Job) (hj : j ∈ (cmds k).jobs) (i : ℕ) :
    (run cmds d schedule).disk.view (backupPath j.2 i) = d.view (backupPath j.2 i) ∨
      (d.view (backupPath j.2 i) = none ∧ ∃ b, d.view j.2 = some b ∧ (run cmds d schedule).disk.view (backupPath j.2 i) = some b) := by
  have hout : IsOut (cmds k) j.2 := ⟨j, hj, rfl⟩
  rw [(C164_any_moment_partial cmds d hi hs schedule).2.1 k _ (.inl (hout.backup i))]
  have w := alone_watched hi (cmds k) ht k (schedule.count k)
  have kept := (alone_kept hi (cmds k) k (schedule.count k)).1
  generalize alone (cmds k) k d (schedule.count k) = x at w kept
  have stays : ∀ i', d.names (backupPath j.2 i) = some i' → x.1.names (backupPath j.2 i) = some (.orig (backupPath j.2 i)) := by
    intro i' e
    rw [hi _ _ e] at e
    obtain ⟨q, hq, -⟩ := kept _ e
    rcases (w.orig _ _ hq).2 with h | ⟨_, ho, -⟩
    · rwa [h] at hq
    · exact absurd rfl (not_backup_of ht ho hout i)
  unfold Disk.view
  cases e0 : d.names (backupPath j.2 i) with
  | some i' =>
    left
    rw [stays i' e0, hi _ _ e0, Option.map_some, Option.map_some, w.data]
  | none =>
    cases e : x.1.names (backupPath j.2 i) with
    | none => exact .inl rfl
    | some ino =>
      right
      refine ⟨rfl, ?_⟩
      cases ino with
      | orig p =>
        obtain ⟨ep, hor⟩ := w.orig _ _ e
        rcases hor with h | ⟨i', -, h⟩
        · rw [← h, e0] at ep; cases ep
        · obtain rfl := backup_path h
          exact ⟨_, by rw [ep, Option.map_some], by rw [Option.map_some, w.data]⟩
      | made p m =>
        obtain ⟨-, -, j', b, hj', ho, -⟩ := w.made _ _ _ e
        exact absurd ho.symm (ht.names j' (List.mem_of_getElem? hj') j hj i)

/-! ## Average and convert -/

theorem tidy_of_numbered {c : Cmd} {base ext output outext : Text} (hn : Numbered c base ext output outext) (once : (c.jobs.map Prod.snd).Nodup)
    (hs : '/' ∉ ext) (hh : ext.getLast? ≠ some '#') (hs' : '/' ∉ outext) (hh' : outext.getLast? ≠ some '#')
    (hd : ∀ m n, splitPath (fileName output outext m) ≠ splitPath (fileName base ext n)) : c.Tidy := by
  refine ⟨once, ?_, ?_⟩
  · intro j hj j' _ i
    obtain ⟨n, e⟩ := hn.writes j hj
    rw [e]
    exact not_backup _ _ _ hs' hh' _ _
  · rintro q ⟨j, hj, hq⟩ ⟨j', hj', e | ⟨i, e⟩⟩
    · obtain ⟨n, e1⟩ := hn.reads j hj q hq
      obtain ⟨m, e2⟩ := hn.writes j' hj'
      exact hd m n (by rw [← e1, ← e2, e])
    · obtain ⟨n, e1⟩ := hn.reads j hj q hq
      exact not_backup _ _ _ hs hh _ _ (e1.symm.trans e)

theorem nodup_outputs (l : List ℕ) (hl : l.Nodup) (output outext : Text) (start : ℤ) (hs : '/' ∉ outext) :
    (l.map fun i : ℕ => splitPath (fileName output outext (start + i))).Nodup := by
  refine hl.map ?_
  intro x y hxy
  have := Driver.splitPath_fileName_injective _ _ hs hxy
  omega

/-- **C166, average and convert.**  The theorems above hold for these commands on any listing, if no output has the name of an input and the extensions contain no slash and do not end in `#`. -/
theorem C166_average_tidy (read : Bytes → Except Err Driver.Map) (write : Flow.Record → Driver.DInfo → Option Bytes × Except Err Unit) (chunks : Bytes → List Bytes)
    (edges : Flow.Flow → Except Err (Option ℚ × Option ℚ)) (o : Driver.Opts) (dir : Dir) (base output ext : Text) (outext : Option Text) (group : ℕ) (hg : 1 ≤ group) (rolling : Bool)
    (b : ℤ) (e : Option ℤ) (hs : '/' ∉ ext) (hh : ext.getLast? ≠ some '#') (hs' : '/' ∉ outext.getD ext) (hh' : (outext.getD ext).getLast? ≠ some '#')
    (hd : ∀ m n, splitPath (fileName output (outext.getD ext) m) ≠ splitPath (fileName base ext n)) :
    (averageCmd read write chunks edges o dir base output ext outext group rolling b e).Tidy := by
  refine tidy_of_numbered (C164_average_numbered read write chunks edges o dir base output ext outext group hg rolling b e) ?_ hs hh hs' hh' hd
  obtain ⟨start, -, -, k, hk, h⟩ := C05_group_numbering dir base output ext outext group hg rolling b e
  have : ((averageCmd read write chunks edges o dir base output ext outext group rolling b e).jobs.map Prod.snd) =
      (List.range k).map fun i : ℕ => splitPath (fileName output (outext.getD ext) (start + i)) := by
    simp only [averageCmd, averageJobs, List.map_map]
    rw [h]
    have e : (Prod.snd ∘ fun io : List Text × Text => (io.1.map splitPath, splitPath io.2)) = splitPath ∘ Prod.snd := rfl
    rw [e, ← List.map_map, List.map_snd_zip (by rw [List.length_map, List.length_range, hk]), List.map_map]
    rfl
  rw [this]
  exact nodup_outputs _ List.nodup_range _ _ _ hs'

theorem C166_convert_tidy (F : F32) (ftype : String) (chunks : Bytes → List Bytes) (dir : Dir) (base output ext : Text) (outext : Option Text) (b : ℤ) (e : Option ℤ)
    (hs : '/' ∉ ext) (hh : ext.getLast? ≠ some '#') (hs' : '/' ∉ outext.getD ext) (hh' : (outext.getD ext).getLast? ≠ some '#')
    (hd : ∀ m n, splitPath (fileName output (outext.getD ext) m) ≠ splitPath (fileName base ext n)) :
    (convertCmd F ftype chunks dir base output ext outext b e).Tidy := by
  refine tidy_of_numbered (C164_convert_numbered F ftype chunks dir base output ext outext b e) ?_ hs hh hs' hh' hd
  obtain ⟨k, h, -⟩ := C02_discovery_maximal_prefix dir base ext b e
  rw [show (convertCmd F ftype chunks dir base output ext outext b e).jobs = _ from convertJobs_eq (output := output) (outext := outext) h, List.map_map]
  exact nodup_outputs _ List.nodup_range _ _ _ hs'

/-! ## Examples and counterexamples -/

/-- The two commands of the example of C164 are tidy. -/
theorem exSep_tidy (k : ℕ) : (exSep k).Tidy := by
  have nb : ∀ (s : String) (p : Path) (i : ℕ), s.toList.head? ≠ some '#' → here s ≠ backupPath p i := by
    intro s p i hs e
    apply hs
    have := congrArg (fun p : Path => p.2.head?) e
    simpa [here, backupPath] using this
  rcases k with _ | _ | k
  · refine ⟨by decide, ?_, ?_⟩
    · intro j hj j' _ i
      simp only [exSep, exTwo, copies, List.mem_cons, List.not_mem_nil, or_false] at hj
      rcases hj with rfl | rfl <;> exact nb _ _ _ (by decide)
    · rintro q ⟨j, hj, hq⟩ ⟨j', hj', e | ⟨i, e⟩⟩ <;> simp only [exSep, exTwo, copies, List.mem_cons, List.not_mem_nil, or_false] at hj hj'
      · rcases hj with rfl | rfl <;> rcases hj' with rfl | rfl <;> rw [List.mem_singleton.mp hq] at e <;> revert e <;> decide
      · rcases hj with rfl | rfl <;> rw [List.mem_singleton.mp hq] at e <;> exact nb _ _ _ (by decide) e
  · refine ⟨by decide, ?_, ?_⟩
    · intro j hj j' _ i
      simp only [exSep, exTwo, copies, List.mem_cons, List.not_mem_nil, or_false] at hj
      subst hj; exact nb _ _ _ (by decide)
    · rintro q ⟨j, hj, hq⟩ ⟨j', hj', e | ⟨i, e⟩⟩ <;> simp only [exSep, exTwo, copies, List.mem_cons, List.not_mem_nil, or_false] at hj hj'
      · subst hj; subst hj'; rw [List.mem_singleton.mp hq] at e; revert e; decide
      · subst hj; rw [List.mem_singleton.mp hq] at e; exact nb _ _ _ (by decide) e
  · exact ⟨by simp [exSep, exTwo, copies], by simp [exSep, exTwo, copies], by rintro q ⟨j, hj, -⟩; simp [exSep, exTwo, copies] at hj⟩

/-- In the course of the first round of the first command the path x has the old file, no file, an empty file, a part and the whole new file, and the backup of it the old file. -/
example : ([4, 6, 7, 8, 9].map fun n => (run exSep (Disk.ofFS exFS fun _ => true) (List.replicate n 0)).disk.view (here "x")) = [some [7], none, some [], some [1], some [1, 2]] ∧
    ((List.range 5).map fun n => (run exSep (Disk.ofFS exFS fun _ => true) (List.replicate (n + 4) 0)).disk.view (here "#x.1#")) = [none, none, some [7], some [7], some [7]] := by
  refine ⟨?_, ?_⟩ <;> decide +kernel

/-- Two conversions of the same files, whatever these are and whatever is listed, to two directories. -/
example (F : F32) (chunks : Bytes → List Bytes) (dir : Dir) (ftype : String) : (convertCmd F ftype chunks dir "f_".toList "one/f_".toList ".dat".toList none 1 none).Tidy := by
  apply C166_convert_tidy
  · decide
  · decide
  · decide
  · decide
  · intro m n e
    have e1 : ∀ (o : Text) (n : ℤ), (splitPath (fileName o ".dat".toList n)).1 = (splitPath o).1 := by
      intro o n
      unfold fileName
      rw [List.append_assoc, splitPath_append _ _ (by simp [Driver.fmt05_noslash])]
    replace e := congrArg Prod.fst e
    rw [Option.getD_none, e1, e1] at e
    revert e
    decide

/-- The conversion of a map of 3 × 5 bins to the simple format, which is written in two pieces. -/
def exWatched : ℕ → Cmd
  | 0 => convertCmd ieee32 "simple" (fun b => [b.take 224, b.drop 224]) ["f_00001.dat".toList] "f_".toList "g_".toList ".dat".toList none 1 none
  | _ => copies []

/-- The map, as a file. -/
def exWatchedFS : FS Bytes := [(here "f_00001.dat", Simple.wideCut 420)]

/-- **C166 is false for readers.**  While the command writes its second piece, the output can be read without an error as a map of 2 × 4 bins; it is the first part of the map of 3 × 5 bins
that the command writes (C165). -/
theorem C166_reader_counterexample :
    ((run exWatched (Disk.ofFS exWatchedFS fun _ => true) (List.replicate 6 0)).disk.view (here "g_00001.dat")).isSome = true ∧
    ((((run exWatched (Disk.ofFS exWatchedFS fun _ => true) (List.replicate 6 0)).disk.view (here "g_00001.dat")).bind fun b =>
      (SpreadingFiles.readFlow ieee32 b).toOption).bind fun f => f.info.shape) = some (2, 4) ∧
    ((((run exWatched (Disk.ofFS exWatchedFS fun _ => true) (List.replicate 8 0)).disk.view (here "g_00001.dat")).bind fun b =>
      (SpreadingFiles.readFlow ieee32 b).toOption).bind fun f => f.info.shape) = some (3, 5) := by
  refine ⟨?_, ?_, ?_⟩ <;> decide +kernel

end Strata.Concurrent
