import Verif.Spec.Collecting
import Verif.Props.Concurrent
import Verif.Props.KilledSeries
/-!
# Proofs about commands that collect rows
-/
namespace Strata.Collecting
open Strata Strata.Files Strata.Flow Strata.Bytes Strata.Spreading Strata.SpreadingText Strata.SpreadingFiles Strata.SavedRuns

variable {τ : Type}

/-- Two disks look the same to a command. -/
structure Agree (c : Cmd τ) (d a : Disk) : Prop where
  files : ∀ q, c.Uses q → d.files q = a.files q
  dirs : d.dirs c.out.1 = true ∧ a.dirs c.out.1 = true

theorem Cmd.owns_out (c : Cmd τ) : c.Owns c.out := .inl rfl
theorem Cmd.owns_backup (c : Cmd τ) (i : ℕ) : c.Owns (backupPath c.out i) := .inr ⟨i, rfl⟩
theorem Cmd.owns_candidate (c : Cmd τ) (i : ℕ) : c.Owns (Concurrent.candidate c.out i) := by
  unfold Concurrent.candidate
  split
  · exact .inl rfl
  · exact .inr ⟨i, rfl⟩

/-- A step looks only at what the command uses. -/
theorem step_agree {c : Cmd τ} {d a : Disk} {s : Pc τ} (h : Agree c d a) :
    (step c (d, s)).2 = (step c (a, s)).2 ∧ Agree c (step c (d, s)).1 (step c (a, s)).1 := by
  unfold step
  have ho := h.files c.out (.inl c.owns_out)
  cases s with
  | directory => simp only [Cmd.op, Op.run, h.dirs.1, h.dirs.2]; exact ⟨trivial, h⟩
  | makedirs => simp only [Cmd.op, Op.run, h.dirs.1, h.dirs.2, if_true]; exact ⟨trivial, h⟩
  | probing i =>
    simp only [Cmd.op, Op.run]
    rw [h.files _ (.inl (c.owns_candidate i))]
    exact ⟨rfl, h⟩
  | moving i =>
    simp only [Cmd.op, Op.run]
    rw [ho]
    cases a.files c.out with
    | none => exact ⟨rfl, h⟩
    | some b =>
      refine ⟨rfl, ?_, h.dirs⟩
      intro q hq
      simp only [Function.update_apply]
      rw [h.files q hq]
  | creating =>
    simp only [Cmd.op, Op.run]
    refine ⟨trivial, ?_, h.dirs⟩
    intro q hq
    simp only [Function.update_apply]
    rw [h.files q hq]
  | loop i s =>
    simp only [Cmd.op]
    cases e : c.inputs[i]? with
    | none => simp only [Op.run]; exact ⟨trivial, h⟩
    | some p =>
      simp only [Op.run]
      rw [h.files p (.inr (List.mem_of_getElem? e))]
      exact ⟨rfl, h⟩
  | appending i s b rest =>
    simp only [Cmd.op, Op.run]
    refine ⟨trivial, ?_, h.dirs⟩
    intro q hq
    simp only [Function.update_apply]
    rw [h.files q hq, ho]
  | ended o => exact ⟨rfl, h⟩

/-- A step changes only what the command owns. -/
theorem step_frame (c : Cmd τ) (d : Disk) (s : Pc τ) :
    (∀ q, ¬ c.Owns q → (step c (d, s)).1.files q = d.files q) ∧ ∀ x, d.dirs x = true → (step c (d, s)).1.dirs x = true := by
  unfold step
  cases s with
  | directory => exact ⟨fun _ _ => rfl, fun _ h => h⟩
  | makedirs =>
    simp only [Cmd.op, Op.run]
    cases e : d.dirs c.out.1 with
    | true => exact ⟨fun _ _ => rfl, fun _ h => h⟩
    | false => exact ⟨fun _ _ => rfl, fun x h => by simp [h]⟩
  | probing i => exact ⟨fun _ _ => rfl, fun _ h => h⟩
  | moving i =>
    simp only [Cmd.op, Op.run]
    cases e : d.files c.out with
    | none => exact ⟨fun _ _ => rfl, fun _ h => h⟩
    | some b =>
      refine ⟨?_, fun _ h => h⟩
      intro q hq
      simp only [Function.update_apply]
      rw [if_neg (by rintro rfl; exact hq (c.owns_backup i)), if_neg (by rintro rfl; exact hq c.owns_out)]
  | creating =>
    refine ⟨?_, fun _ h => h⟩
    intro q hq
    simp only [Cmd.op, Op.run, Function.update_apply]
    rw [if_neg (by rintro rfl; exact hq c.owns_out)]
  | loop i s =>
    simp only [Cmd.op]
    cases e : c.inputs[i]? <;> exact ⟨fun _ _ => rfl, fun _ h => h⟩
  | appending i s b rest =>
    refine ⟨?_, fun _ h => h⟩
    intro q hq
    simp only [Cmd.op, Op.run, Function.update_apply]
    rw [if_neg (by rintro rfl; exact hq c.owns_out)]
  | ended o => exact ⟨fun _ _ => rfl, fun _ h => h⟩

theorem alone_succ (c : Cmd τ) (d : Disk) (n : ℕ) : alone c d (n + 1) = step c (alone c d n) := by
  unfold alone
  rw [Function.iterate_succ_apply']

/-- What holds of all processes: each is where it would be alone. -/
structure Inv {τ : ℕ → Type} (cmds : ∀ k, Cmd (τ k)) (d : Disk) (n : ℕ → ℕ) (s : Sys τ) : Prop where
  pc : ∀ k, s.procs k = (alone (cmds k) d (n k)).2
  agree : ∀ k, Agree (cmds k) s.disk (alone (cmds k) d (n k)).1
  rest : ∀ q, (∀ k, ¬ (cmds k).Owns q) → s.disk.files q = d.files q

theorem inv_run {τ : ℕ → Type} {cmds : ∀ k, Cmd (τ k)} {d : Disk} (hs : Separate cmds d) (schedule : List ℕ) :
    Inv cmds d (fun k => schedule.count k) (run cmds d schedule) := by
  induction schedule using List.reverseRecOn with
  | nil => exact ⟨fun _ => rfl, fun k => ⟨fun _ _ => rfl, hs.dirs k, hs.dirs k⟩, fun _ _ => rfl⟩
  | append_singleton sch m ih =>
    have e : run cmds d (sch ++ [m]) = (run cmds d sch).move cmds m := by unfold run; rw [List.foldl_append]; rfl
    rw [e]
    generalize run cmds d sch = s at ih
    have hst := step_agree (s := s.procs m) (ih.agree m)
    have fr := step_frame (cmds m) s.disk (s.procs m)
    have hcount : ∀ k, (sch ++ [m]).count k = if k = m then sch.count m + 1 else sch.count k := by
      intro k
      rw [List.count_append]
      by_cases hk : k = m
      · subst hk; simp
      · rw [if_neg hk, List.count_singleton, if_neg (by simpa using fun h => hk h.symm), Nat.add_zero]
    have hal : alone (cmds m) d (sch.count m + 1) = step (cmds m) ((alone (cmds m) d (sch.count m)).1, s.procs m) := by
      rw [alone_succ, ih.pc m]
    refine ⟨?_, ?_, ?_⟩
    · intro k
      simp only [hcount]
      by_cases hk : k = m
      · subst hk
        rw [if_pos rfl, hal]
        simp only [Sys.move, Function.update_self]
        exact hst.1
      · rw [if_neg hk]
        simp only [Sys.move, Function.update_of_ne hk]
        exact ih.pc k
    · intro k
      simp only [hcount]
      by_cases hk : k = m
      · subst hk
        rw [if_pos rfl, hal]
        exact hst.2
      · rw [if_neg hk]
        refine ⟨?_, fr.2 _ (ih.agree k).dirs.1, (ih.agree k).dirs.2⟩
        intro q hq
        rw [← (ih.agree k).files q hq]
        exact fr.1 q fun ho => hs.paths m k (fun h => hk h.symm) q ho hq
    · intro q hq
      rw [← ih.rest q hq]
      exact fr.1 q (hq m)

/-! ## A command alone -/

/-- Some steps lead from one state to another. -/
def Reach (c : Cmd τ) (x y : Disk × Pc τ) : Prop := ∃ m, (step c)^[m] x = y

theorem Reach.refl {c : Cmd τ} (x : Disk × Pc τ) : Reach c x x := ⟨0, rfl⟩

theorem Reach.trans {c : Cmd τ} {x y z : Disk × Pc τ} (h : Reach c x y) (h' : Reach c y z) : Reach c x z := by
  obtain ⟨m, rfl⟩ := h
  obtain ⟨m', rfl⟩ := h'
  exact ⟨m' + m, Function.iterate_add_apply _ m' m x⟩

theorem Reach.step {c : Cmd τ} {x z : Disk × Pc τ} (h : Reach c (step c x) z) : Reach c x z := by
  obtain ⟨m, h⟩ := h
  exact ⟨m + 1, h⟩

/-- The disk has these files. -/
def Holds (d : Disk) (fs : FS Bytes) : Prop := ∀ q, d.files q = fs.get? q

theorem reach_probing (c : Cmd τ) (d : Disk) : ∀ i, (∀ m, m < i → (d.files (Concurrent.candidate c.out m)).isSome = true) → Reach c (d, .probing 0) (d, .probing i)
  | 0, _ => .refl _
  | i + 1, h => by
    refine (reach_probing c d i fun m hm => h m (by omega)).trans (.step ?_)
    simp only [Collecting.step, Cmd.op, Op.run, h i (by omega), if_true]
    exact .refl _

/-- The output is prepared and the header is written. -/
theorem reach_prepared (c : Cmd τ) (d : Disk) (fs : FS Bytes) (h : Holds d fs) (hd : d.dirs c.out.1 = true) :
    ∃ d' fs', preparePath fs c.out = .ok fs' ∧ Reach c (d, .directory) (d', .loop 0 c.start) ∧ Holds d' (fs'.put c.out c.head) ∧ d'.dirs = d.dirs := by
  have r0 : Reach c (d, .directory) (d, .probing 0) := by
    apply Reach.step
    simp only [Collecting.step, Cmd.op, Op.run, hd, if_true]
    exact .refl _
  have create : ∀ (d1 : Disk) (fs1 : FS Bytes), Holds d1 fs1 → d1.dirs = d.dirs → Reach c (d, .directory) (d1, .creating) →
      ∃ d', Reach c (d, .directory) (d', .loop 0 c.start) ∧ Holds d' (fs1.put c.out c.head) ∧ d'.dirs = d.dirs := by
    intro d1 fs1 h1 hd1 r
    refine ⟨_, r.trans (.step (.refl _)), ?_, hd1⟩
    intro q
    simp only [Collecting.step, Cmd.op, Op.run, Function.update_apply]
    rw [get?_put]
    by_cases hq : q = c.out
    · rw [if_pos hq, if_pos hq]
    · rw [if_neg hq, if_neg hq, h1 q]
  rcases backupTarget_spec fs c.out with ⟨h1, h2⟩ | ⟨h1, i, hi, -, hall, hfree, h2⟩
  · obtain ⟨d', r, hh, hdd⟩ := create d fs h rfl (r0.trans (.step (by
      simp only [Collecting.step, Cmd.op, Op.run, Concurrent.candidate, if_true, h c.out, h1, Option.isSome_none, Bool.false_eq_true, if_false]
      exact .refl _)))
    exact ⟨d', fs, by simp [preparePath, h2], r, hh, hdd⟩
  · obtain ⟨b, hb⟩ := Option.ne_none_iff_exists'.mp h1
    have r1 := reach_probing c d i (by
      intro m hm
      rw [h]
      unfold Concurrent.candidate
      by_cases m0 : m = 0
      · rw [if_pos m0, hb]; rfl
      · rw [if_neg m0, Option.isSome_iff_ne_none]
        exact hall m (by omega) hm)
    have i0 : i ≠ 0 := by omega
    have r2 : Reach c (d, .probing i) ({ d with files := Function.update (Function.update d.files c.out none) (backupPath c.out i) (some b) }, .creating) := by
      apply Reach.step
      simp only [Collecting.step, Cmd.op, Op.run, Concurrent.candidate, if_neg i0, h (backupPath c.out i), hfree, Option.isSome_none, Bool.false_eq_true, if_false]
      apply Reach.step
      simp only [Collecting.step, Cmd.op, Op.run, h c.out, hb, if_true]
      exact .refl _
    have hren : fs.rename c.out (backupPath c.out i) = (fs.remove c.out).put (backupPath c.out i) b := by simp [FS.rename, hb]
    obtain ⟨d', r, hh, hdd⟩ := create { d with files := Function.update (Function.update d.files c.out none) (backupPath c.out i) (some b) } (fs.rename c.out (backupPath c.out i)) (by
      intro q
      rw [hren, get?_put, get?_remove]
      simp only [Function.update_apply]
      rw [h q]) rfl ((r0.trans r1).trans r2)
    exact ⟨d', _, by simp [preparePath, h2], r, hh, hdd⟩

theorem ended_stays {c : Cmd τ} {d : Disk} {o : Except Err Unit} : step c (d, .ended o) = (d, .ended o) := rfl

theorem alone_stays {c : Cmd τ} {d : Disk} {n : ℕ} {o : Except Err Unit} (h : (alone c d n).2 = .ended o) : ∀ m, n ≤ m → alone c d m = alone c d n := by
  intro m hm
  induction m, hm using Nat.le_induction with
  | base => rfl
  | succ m _ ih =>
    rw [alone_succ, ih]
    obtain ⟨d', s⟩ : ∃ x, alone c d n = x := ⟨_, rfl⟩
    generalize alone c d n = x at *
    obtain ⟨d', s⟩ := x
    simp only at h
    subst h
    rfl

theorem reach_pieces (c : Cmd τ) (i : ℕ) (s : τ) : ∀ (pieces : List Bytes) (d : Disk) (fs : FS Bytes), Holds d fs →
    ∃ d', Reach c (d, Pc.next i s pieces) (d', .loop (i + 1) s) ∧ Holds d' (pieces.foldl (fun fs b => fs.put c.out ((fs.get? c.out).getD [] ++ b)) fs)
  | [], d, fs, h => ⟨d, .refl _, h⟩
  | b :: rest, d, fs, h => by
    obtain ⟨d', r, hh⟩ := reach_pieces c i s rest { d with files := Function.update d.files c.out (some ((d.files c.out).getD [] ++ b)) }
      (fs.put c.out ((fs.get? c.out).getD [] ++ b)) (by
        intro q
        simp only [Function.update_apply]
        rw [get?_put, h c.out, h q])
    exact ⟨d', .step r, hh⟩

theorem appendTo_bytes (p : Path) (fs : FS Bytes) (t : Text) : appendTo byteStore p fs t = fs.put p ((fs.get? p).getD [] ++ byteStore.encode t) := by
  unfold appendTo
  cases fs.get? p <;> rfl

theorem inputs_get {names rest : List Text} {n : Text} {i : ℕ} (h : names.drop i = n :: rest) : (names.map splitPath)[i]? = some (splitPath n) ∧ names.getD i [] = n ∧ names.drop (i + 1) = rest := by
  have h1 : names[i]? = some n := by
    have := congrArg List.head? h
    rwa [List.head?_drop] at this
  refine ⟨by rw [List.getElem?_map, h1]; rfl, by rw [List.getD_eq_getElem?_getD, h1]; rfl, ?_⟩
  rw [← List.tail_drop, h]
  rfl

theorem inputs_end {names : List Text} {i : ℕ} (h : names.drop i = []) : (names.map splitPath)[i]? = none := by
  rw [List.getElem?_eq_none_iff, List.length_map]
  exact List.drop_eq_nil_iff.mp h

/-- The loop of a sampling command. -/
theorem reach_samples {ρ : Type} (item : ℕ → Option Bytes → Item ρ) (line : ρ → Text) (head : List Text) (out : Text) (dir : Dir) (base ext : Text) (b : ℤ) (e : Option ℤ) :
    ∀ (rest : List Text) (i : ℕ) (d : Disk) (fs : FS Bytes), (yieldSingles dir base ext b e).drop i = rest → Holds d fs →
      ∃ d', Reach (sampleCmd item line head out dir base ext b e) (d, .loop i ()) (d', .ended (runFiles item line byteStore (some (splitPath out)) fs i rest).2.2) ∧
        Holds d' (runFiles item line byteStore (some (splitPath out)) fs i rest).1
  | [], i, d, fs, hr, h => by
    refine ⟨d, .step ?_, h⟩
    simp only [Collecting.step, Cmd.op, sampleCmd, inputs_end hr, Op.run]
    exact .refl _
  | n :: rest, i, d, fs, hr, h => by
    obtain ⟨h1, -, h3⟩ := inputs_get hr
    have hs : Collecting.step (sampleCmd item line head out dir base ext b e) (d, .loop i ()) = (d, match item i (fs.get? (splitPath n)) with
        | .stop o => .ended o
        | .skip => .loop (i + 1) ()
        | .row r => .appending i () (byteStore.encode (line r ++ ['\n'])) []) := by
      simp only [Collecting.step, Cmd.op, sampleCmd, h1, Op.run, h (splitPath n)]
      cases item i (fs.get? (splitPath n)) <;> rfl
    unfold runFiles
    cases e1 : item i (fs.get? (splitPath n)) with
    | stop o =>
      rw [e1] at hs
      exact ⟨d, .step (by rw [hs]; exact .refl _), h⟩
    | skip =>
      rw [e1] at hs
      obtain ⟨d', r, hh⟩ := reach_samples item line head out dir base ext b e rest (i + 1) d fs h3 h
      exact ⟨d', .step (by rw [hs]; exact r), hh⟩
    | row x =>
      rw [e1] at hs
      obtain ⟨d1, r1, hh1⟩ := reach_pieces (sampleCmd item line head out dir base ext b e) i () [byteStore.encode (line x ++ ['\n'])] d fs h
      obtain ⟨d', r, hh⟩ := reach_samples item line head out dir base ext b e rest (i + 1) d1 (appendTo byteStore (splitPath out) fs (line x ++ ['\n'])) h3 (by
        rw [appendTo_bytes]
        exact hh1)
      exact ⟨d', .step (by rw [hs]; exact r1.trans r), hh⟩

/-- The loop of `collect` of spreading data. -/
theorem reach_curve (read : Bytes → Except Err Flow) (hd : Header) (out : Text) (o : CollectOpts) (flag : Bool) (dir : Dir) (base ext : Text) (b : ℤ) (e : Option ℤ) :
    ∀ (rest : List Text) (i : ℕ) (s : State) (d : Disk) (fs : FS Bytes), (yieldSingles dir base ext b e).drop i = rest → Holds d fs →
      ∃ d', Reach (collectCmd read hd out o flag dir base ext b e) (d, .loop i s) (d', .ended (collectLoop read byteStore (some (splitPath out)) o fs s i rest).outcome) ∧
        Holds d' (collectLoop read byteStore (some (splitPath out)) o fs s i rest).fs
  | [], i, s, d, fs, hr, h => by
    refine ⟨d, .step ?_, h⟩
    simp only [Collecting.step, Cmd.op, collectCmd, inputs_end hr, Op.run]
    exact .refl _
  | n :: rest, i, s, d, fs, hr, h => by
    obtain ⟨h1, h2, h3⟩ := inputs_get hr
    have hs : Collecting.step (collectCmd read hd out o flag dir base ext b e) (d, .loop i s) = (d, match fileFrame read o fs n with
        | .error x => .ended (.error x)
        | .ok f => Pc.next i (Spreading.step o.dt true s i f) (((Spreading.step o.dt true s i f).lines.drop s.lines.length).map fun l => byteStore.encode (joinLines (lineTexts l)))) := by
      simp only [Collecting.step, Cmd.op, collectCmd, h1, Op.run, h (splitPath n), fileFrame, h2]
      cases ((fs.get? (splitPath n)).elim (.error .osError) fun c => (read c).bind fun f => frameOf f n o.radius o.floor o.interface) <;> rfl
    unfold collectLoop
    cases e1 : fileFrame read o fs n with
    | error x =>
      rw [e1] at hs
      exact ⟨d, .step (by rw [hs]; exact .refl _), h⟩
    | ok f =>
      rw [e1] at hs
      obtain ⟨d1, r1, hh1⟩ := reach_pieces (collectCmd read hd out o flag dir base ext b e) i (Spreading.step o.dt true s i f)
        (((Spreading.step o.dt true s i f).lines.drop s.lines.length).map fun l => byteStore.encode (joinLines (lineTexts l))) d fs h
      obtain ⟨d', r, hh⟩ := reach_curve read hd out o flag dir base ext b e rest (i + 1) (Spreading.step o.dt true s i f) d1
        (afterStep byteStore (some (splitPath out)) fs s (Spreading.step o.dt true s i f)) h3 (by
          unfold afterStep
          simp only [appendTo_bytes]
          rw [List.foldl_map] at hh1
          exact hh1)
      exact ⟨d', .step (by rw [hs]; exact r1.trans r), hh⟩

/-- A sampling command alone does what the call does. -/
theorem alone_samples {ρ : Type} (item : ℕ → Option Bytes → Item ρ) (line : ρ → Text) (head : List Text) (out : Text) (dir : Dir) (base ext : Text) (b : ℤ) (e : Option ℤ) (d : Disk) (fs : FS Bytes)
    (h : Holds d fs) (hd : d.dirs (splitPath out).1 = true) :
    ∃ n, (alone (sampleCmd item line head out dir base ext b e) d n).2 = .ended (SavedRuns.run item line byteStore head (some out) fs dir base ext b e).2.2 ∧
      Holds (alone (sampleCmd item line head out dir base ext b e) d n).1 (SavedRuns.run item line byteStore head (some out) fs dir base ext b e).1 := by
  obtain ⟨d1, fs1, h1, r1, hh1, -⟩ := reach_prepared (sampleCmd item line head out dir base ext b e) d fs h hd
  obtain ⟨d2, r2, hh2⟩ := reach_samples item line head out dir base ext b e _ 0 d1 _ rfl hh1
  obtain ⟨n, hn⟩ := r1.trans r2
  refine ⟨n, ?_⟩
  have hp : preparePath fs (splitPath out) = .ok fs1 := h1
  unfold alone SavedRuns.run
  simp only [hp]
  rw [hn]
  exact ⟨rfl, hh2⟩

/-- `collect` of spreading data alone does what the call does. -/
theorem alone_curve (read : Bytes → Except Err Flow) (hd : Header) (out : Text) (o : CollectOpts) (flag : Bool) (dir : Dir) (base ext : Text) (b : ℤ) (e : Option ℤ) (d : Disk) (fs : FS Bytes)
    (h : Holds d fs) (hdir : d.dirs (splitPath out).1 = true) :
    ∃ n, (alone (collectCmd read hd out o flag dir base ext b e) d n).2 = .ended (collectFiles read byteStore hd (some out) o flag fs dir base ext b e).outcome ∧
      Holds (alone (collectCmd read hd out o flag dir base ext b e) d n).1 (collectFiles read byteStore hd (some out) o flag fs dir base ext b e).fs := by
  obtain ⟨d1, fs1, h1, r1, hh1, -⟩ := reach_prepared (collectCmd read hd out o flag dir base ext b e) d fs h hdir
  obtain ⟨d2, r2, hh2⟩ := reach_curve read hd out o flag dir base ext b e _ 0 _ d1 _ rfl hh1
  obtain ⟨n, hn⟩ := r1.trans r2
  refine ⟨n, ?_⟩
  have hp : preparePath fs (splitPath out) = .ok fs1 := h1
  unfold alone collectFiles writeHeader
  simp only [Option.map_some, hp, Except.map]
  rw [hn]
  exact ⟨rfl, hh2⟩

/-- A process alone does what the call does. -/
theorem alone_call (c : Call) (fs : FS Bytes) (dirs : Text → Bool) (hd : dirs c.cmd.out.1 = true) :
    ∃ n, (alone c.cmd (Disk.ofFS fs dirs) n).2 = .ended (c.result fs).2 ∧ Holds (alone c.cmd (Disk.ofFS fs dirs) n).1 (c.result fs).1 := by
  cases c with
  | samples ρ item line head out dir base ext b e => exact alone_samples item line head out dir base ext b e _ fs (fun _ => rfl) hd
  | curve read h out o flag dir base ext b e => exact alone_curve read h out o flag dir base ext b e _ fs (fun _ => rfl) hd

/-! ## The output at any moment -/

/-- The output is not yet created, or created and being filled. -/
inductive Stage (old : Option Bytes) (c : Cmd τ) : Disk × Pc τ → Prop where
  | before {d : Disk} {s : Pc τ} : d.files c.out = old → (∀ i t, s ≠ .loop i t) → (∀ i t b r, s ≠ .appending i t b r) → s ≠ .creating → Stage old c (d, s)
  | moved {d : Disk} : d.files c.out = none → Stage old c (d, .creating)
  | filled {d : Disk} {s : Pc τ} (x : Bytes) : d.files c.out = some x → ((∃ i t, s = .loop i t) ∨ (∃ i t b r, s = .appending i t b r) ∨ ∃ o, s = .ended o) → Stage old c (d, s)

/-- How far a process is: in the last stage the output only grows. -/
theorem next_filled (i : ℕ) (s : τ) (l : List Bytes) : (∃ j t, Pc.next i s l = .loop j t) ∨ (∃ j t b r, Pc.next i s l = .appending j t b r) ∨ ∃ o, Pc.next i s l = .ended o := by
  cases l with
  | nil => exact .inl ⟨_, _, rfl⟩
  | cons b r => exact .inr (.inl ⟨_, _, _, _, rfl⟩)

theorem step_filled {old : Option Bytes} {c : Cmd τ} {d : Disk} {s : Pc τ} {x : Bytes} (h : d.files c.out = some x)
    (hs : (∃ i t, s = .loop i t) ∨ (∃ i t b r, s = .appending i t b r) ∨ ∃ o, s = .ended o) :
    Stage old c (step c (d, s)) ∧ ∃ y, (step c (d, s)).1.files c.out = some (x ++ y) := by
  rcases hs with ⟨i, t, rfl⟩ | ⟨i, t, b, r, rfl⟩ | ⟨o, rfl⟩
  · unfold step
    simp only [Cmd.op]
    cases e : c.inputs[i]? with
    | none => exact ⟨.filled x h (.inr (.inr ⟨_, rfl⟩)), [], by simpa [Op.run] using h⟩
    | some p =>
      simp only [Op.run]
      refine ⟨.filled x h ?_, [], by simpa using h⟩
      cases c.row t i (d.files p) with
      | stop o => exact .inr (.inr ⟨_, rfl⟩)
      | go t' l => exact next_filled i t' l
  · unfold step
    simp only [Cmd.op, Op.run]
    refine ⟨.filled (x ++ b) ?_ (next_filled i t r), b, ?_⟩ <;> simp [h]
  · exact ⟨.filled x h (.inr (.inr ⟨_, rfl⟩)), [], by simpa [step, Cmd.op, Op.run] using h⟩

theorem step_stage {old : Option Bytes} {c : Cmd τ} {p : Disk × Pc τ} (h : Stage old c p) : Stage old c (step c p) := by
  cases h with
  | @before d s h h1 h2 h3 =>
    unfold step
    cases s with
    | directory =>
      simp only [Cmd.op, Op.run]
      split <;> exact .before h (by simp) (by simp) (by simp)
    | makedirs =>
      simp only [Cmd.op, Op.run]
      split <;> exact .before h (by simp) (by simp) (by simp)
    | probing i =>
      simp only [Cmd.op, Op.run]
      cases e : d.files (Concurrent.candidate c.out i) with
      | some b => exact .before h (by simp) (by simp) (by simp)
      | none =>
        simp only [Option.isSome_none, Bool.false_eq_true, if_false]
        by_cases hi : i = 0
        · rw [if_pos hi]
          subst hi
          exact .moved e
        · rw [if_neg hi]
          exact .before h (by simp) (by simp) (by simp)
    | moving i =>
      simp only [Cmd.op, Op.run]
      cases e : d.files c.out with
      | none => exact .before h (by simp) (by simp) (by simp)
      | some b =>
        refine .moved ?_
        simp only [Function.update_apply]
        rw [if_neg (fun e => backupPath_ne _ _ e.symm), if_pos trivial]
    | creating => exact absurd rfl h3
    | loop i t => exact absurd rfl (h1 i t)
    | appending i t b r => exact absurd rfl (h2 i t b r)
    | ended o => exact .before h (by simp) (by simp) (by simp)
  | moved h => exact .filled c.head (by simp [step, Cmd.op, Op.run]) (.inl ⟨_, _, rfl⟩)
  | filled x h hs => exact (step_filled h hs).1

theorem alone_stage (c : Cmd τ) (d : Disk) : ∀ n, Stage (d.files c.out) c (alone c d n)
  | 0 => .before rfl (by simp) (by simp) (by simp)
  | n + 1 => by rw [alone_succ]; exact step_stage (alone_stage c d n)

/-- What is in a new output stays there. -/
theorem alone_grows (c : Cmd τ) (d : Disk) (n m : ℕ) (h : n ≤ m) (x : Bytes) (hx : (alone c d n).1.files c.out = some x)
    (hs : (∃ i t, (alone c d n).2 = .loop i t) ∨ (∃ i t b r, (alone c d n).2 = .appending i t b r) ∨ ∃ o, (alone c d n).2 = .ended o) :
    ∃ y, (alone c d m).1.files c.out = some (x ++ y) ∧
      ((∃ i t, (alone c d m).2 = .loop i t) ∨ (∃ i t b r, (alone c d m).2 = .appending i t b r) ∨ ∃ o, (alone c d m).2 = .ended o) := by
  induction m, h using Nat.le_induction with
  | base => exact ⟨[], by simpa using hx, hs⟩
  | succ m _ ih =>
    obtain ⟨y, h1, h2⟩ := ih
    rw [alone_succ]
    have e : alone c d m = ((alone c d m).1, (alone c d m).2) := rfl
    obtain ⟨h3, z, h4⟩ := step_filled (old := none) h1 h2
    rw [e]
    refine ⟨y ++ z, by rw [h4, List.append_assoc], ?_⟩
    revert h4 h3
    generalize step c ((alone c d m).1, (alone c d m).2) = p
    intro h3 h4
    cases h3 with
    | before h _ _ _ => simp only at h4; rw [h] at h4; cases h4
    | moved h => simp only at h4; rw [h] at h4; cases h4
    | filled x' _ h => exact h

end Strata.Collecting
