import Verif.Spec.Concurrent
import Verif.Proofs.Killed
/-!
# Lemmas about commands that run at the same time
-/
namespace Strata.Concurrent
open Strata Strata.Files Strata.Killed Strata.Bytes

/-- A file that a command may change. -/
def Mine (c : Cmd) (k : ℕ) : Ino → Prop
  | .orig q => c.Owns q
  | .made p _ => p = k

/-- A file that a command may look at. -/
def Seen (c : Cmd) (k : ℕ) : Ino → Prop
  | .orig q => c.Uses q
  | .made p _ => p = k

/-- An output of a command. -/
def IsOut (c : Cmd) (out : Path) : Prop := ∃ j ∈ c.jobs, j.2 = out

theorem IsOut.owns {c : Cmd} {out : Path} (h : IsOut c out) : c.Owns out := by
  obtain ⟨j, hj, rfl⟩ := h; exact ⟨j, hj, .inl rfl⟩

theorem IsOut.backup {c : Cmd} {out : Path} (h : IsOut c out) (i : ℕ) : c.Owns (backupPath out i) := by
  obtain ⟨j, hj, rfl⟩ := h; exact ⟨j, hj, .inr ⟨i, rfl⟩⟩

theorem IsOut.candidate {c : Cmd} {out : Path} (h : IsOut c out) (i : ℕ) : c.Owns (candidate out i) := by
  unfold Concurrent.candidate
  split
  · exact h.owns
  · exact h.backup i

theorem mine_seen {c : Cmd} {k : ℕ} {i : Ino} (h : Mine c k i) : Seen c k i := by
  cases i with
  | orig q => exact .inl h
  | made p n => exact h

/-- What holds of the place of a process. -/
def PcOk (c : Cmd) (k : ℕ) (s : Proc) : Prop :=
  (∀ j ∈ s.rest, j ∈ c.jobs) ∧
  match s.pc with
  | .reading todo _ out => (∀ q ∈ todo, c.Reads q) ∧ IsOut c out
  | .directory out _ | .makedirs out _ | .probing out _ _ | .opening out _ => IsOut c out
  | .moving out b _ => IsOut c out ∧ c.Owns b
  | .writing ino _ _ => Mine c k ino
  | .finished | .failed _ => True

/-- The files under the paths of a command are its own. -/
def DiskOk (c : Cmd) (k : ℕ) (d : Disk) : Prop :=
  ∀ q i, d.names q = some i → (c.Owns q → Mine c k i) ∧ (c.Uses q → Seen c k i)

/-- Two disks look the same to a command. -/
structure Agree (c : Cmd) (k : ℕ) (d a : Disk) : Prop where
  names : ∀ q, c.Uses q → d.names q = a.names q
  data : ∀ i, Seen c k i → d.data i = a.data i
  dirs : ∀ j ∈ c.jobs, d.dirs j.2.1 = a.dirs j.2.1

theorem Agree.view {c : Cmd} {k : ℕ} {d a : Disk} (h : Agree c k d a) (hd : DiskOk c k d) {q : Path} (hq : c.Uses q) : d.view q = a.view q := by
  unfold Disk.view
  rw [← h.names q hq]
  cases e : d.names q with
  | none => rfl
  | some i => rw [Option.map_some, Option.map_some, h.data i ((hd q i e).2 hq)]

theorem nextJob_ok (c : Cmd) (k n : ℕ) : ∀ js : List Job, (∀ j ∈ js, j ∈ c.jobs) → PcOk c k (Proc.nextJob n js)
  | [], _ => ⟨by simp [Proc.nextJob], by simp [Proc.nextJob]⟩
  | j :: r, h => ⟨fun x hx => h x (List.mem_cons_of_mem _ hx), fun q hq => ⟨j, h j List.mem_cons_self, hq⟩, j, h j List.mem_cons_self, rfl⟩

/-- A step of a process looks only at what the process uses. -/
theorem step_agree {c : Cmd} {k : ℕ} {d a : Disk} {s : Proc} (hp : PcOk c k s) (hd : DiskOk c k d) (h : Agree c k d a) :
    (step c k d s).2 = (step c k a s).2 ∧ Agree c k (step c k d s).1 (step c k a s).1 ∧ PcOk c k (step c k d s).2 := by
  obtain ⟨pc, rest, next⟩ := s
  obtain ⟨hr, hp⟩ := hp
  simp only at hr
  have ho : ∀ {out : Path}, IsOut c out → d.names out = a.names out := fun h' => h.names _ (.inl h'.owns)
  have hdir : ∀ {out : Path}, IsOut c out → d.dirs out.1 = a.dirs out.1 := by
    rintro out ⟨j, hj, rfl⟩; exact h.dirs j hj
  cases pc with
  | reading todo got out =>
    simp only at hp
    cases todo with
    | nil =>
      simp only [step]
      cases c.content got with
      | error e => exact ⟨rfl, h, hr, trivial⟩
      | ok b => exact ⟨rfl, h, hr, hp.2⟩
    | cons q todo =>
      simp only [step]
      refine ⟨by rw [h.view hd (.inr (hp.1 q List.mem_cons_self))], h, hr, ?_, hp.2⟩
      exact fun x hx => hp.1 x (List.mem_cons_of_mem _ hx)
  | directory out cs =>
    simp only at hp
    simp only [step]
    refine ⟨by rw [hdir hp], h, hr, ?_⟩
    cases d.dirs out.1 <;> exact hp
  | makedirs out cs =>
    simp only at hp
    simp only [step]
    rw [← hdir hp]
    cases d.dirs out.1 with
    | true => exact ⟨rfl, h, hr, trivial⟩
    | false =>
      refine ⟨rfl, ⟨h.names, h.data, ?_⟩, hr, hp⟩
      intro j hj
      show (d.dirs j.2.1 || _) = (a.dirs j.2.1 || _)
      rw [h.dirs j hj]
  | probing out i cs =>
    simp only at hp
    simp only [step]
    refine ⟨by rw [h.names _ (.inl (hp.candidate i))], h, hr, ?_⟩
    by_cases e : (d.names (candidate out i)).isSome = true
    · simp only [e, if_true]; exact hp
    · by_cases i0 : i = 0
      · simp only [if_neg e, if_pos i0]; exact hp
      · simp only [if_neg e, if_neg i0]; exact ⟨hp, hp.candidate i⟩
  | moving out b cs =>
    simp only at hp
    simp only [step]
    rw [← ho hp.1]
    cases e : d.names out with
    | none => exact ⟨rfl, h, hr, trivial⟩
    | some ino =>
      refine ⟨rfl, ⟨?_, h.data, h.dirs⟩, hr, hp.1⟩
      intro q hq
      simp only [Function.update_apply]
      rw [h.names q hq]
  | opening out cs =>
    simp only at hp
    simp only [step]
    rw [← ho hp]
    cases e : d.names out with
    | none =>
      refine ⟨rfl, ⟨?_, ?_, h.dirs⟩, hr, show k = k from rfl⟩
      · intro q hq
        simp only [Function.update_apply]
        rw [h.names q hq]
      · intro i hi
        simp only [Function.update_apply]
        rw [h.data i hi]
    | some ino =>
      refine ⟨rfl, ⟨h.names, ?_, h.dirs⟩, hr, (hd out ino e).1 hp.owns⟩
      intro i hi
      simp only [Function.update_apply]
      rw [h.data i hi]
  | writing ino off cs =>
    simp only at hp
    cases cs with
    | nil => exact ⟨rfl, h, nextJob_ok c k next rest hr⟩
    | cons x cs =>
      simp only [step]
      refine ⟨trivial, ⟨h.names, ?_, h.dirs⟩, hr, hp⟩
      intro i hi
      simp only [Function.update_apply]
      rw [h.data i hi, h.data ino (mine_seen hp)]
  | finished => exact ⟨rfl, h, hr, trivial⟩
  | failed e => exact ⟨rfl, h, hr, trivial⟩

/-- A step of a process changes only what it owns. -/
structure Frame (c : Cmd) (k : ℕ) (d d' : Disk) : Prop where
  names : ∀ q, ¬ c.Owns q → d'.names q = d.names q
  data : ∀ i, ¬ Mine c k i → d'.data i = d.data i
  own : ∀ q i, c.Owns q → d'.names q = some i → Mine c k i
  grow : ∀ x, d.dirs x = true → d'.dirs x = true
  dirs : ∀ x, (∀ j ∈ c.jobs, madeBy j.2.1 x = false) → d'.dirs x = d.dirs x

theorem step_frame {c : Cmd} {k : ℕ} {d : Disk} {s : Proc} (hp : PcOk c k s) (hd : DiskOk c k d) : Frame c k d (step c k d s).1 := by
  have same : Frame c k d d := ⟨fun _ _ => rfl, fun _ _ => rfl, fun q i hq e => (hd q i e).1 hq, fun _ h => h, fun _ _ => rfl⟩
  obtain ⟨pc, rest, next⟩ := s
  obtain ⟨hr, hp⟩ := hp
  cases pc with
  | reading todo got out =>
    cases todo with
    | nil =>
      simp only [step]
      cases c.content got <;> exact same
    | cons q todo => exact same
  | directory out cs => exact same
  | makedirs out cs =>
    simp only at hp
    simp only [step]
    cases e : d.dirs out.1 with
    | true => exact same
    | false =>
      refine ⟨fun _ _ => rfl, fun _ _ => rfl, same.own, ?_, ?_⟩
      · intro x hx
        show (d.dirs x || _) = true
        rw [hx, Bool.true_or]
      · intro x hx
        obtain ⟨j, hj, rfl⟩ := hp
        show (d.dirs x || madeBy j.2.1 x) = _
        rw [hx j hj, Bool.or_false]
  | probing out i cs => exact same
  | moving out b cs =>
    simp only at hp
    simp only [step]
    cases e : d.names out with
    | none => exact same
    | some ino =>
      refine ⟨?_, fun _ _ => rfl, ?_, fun _ h => h, fun _ _ => rfl⟩
      · intro q hq
        simp only [Function.update_apply]
        rw [if_neg (by rintro rfl; exact hq hp.2), if_neg (by rintro rfl; exact hq hp.1.owns)]
      · intro q i hq hi
        simp only [Function.update_apply] at hi
        by_cases hb : q = b
        · rw [if_pos hb] at hi
          injection hi with hi
          subst hi
          exact (hd out ino e).1 hp.1.owns
        · rw [if_neg hb] at hi
          by_cases hb' : q = out
          · rw [if_pos hb'] at hi; cases hi
          · rw [if_neg hb'] at hi
            exact (hd q i hi).1 hq
  | opening out cs =>
    simp only at hp
    simp only [step]
    cases e : d.names out with
    | none =>
      refine ⟨?_, ?_, ?_, fun _ h => h, fun _ _ => rfl⟩
      · intro q hq
        simp only [Function.update_apply]
        rw [if_neg (by rintro rfl; exact hq hp.owns)]
      · intro i hi
        simp only [Function.update_apply]
        rw [if_neg (by rintro rfl; exact hi rfl)]
      · intro q i hq hi
        simp only [Function.update_apply] at hi
        by_cases hb : q = out
        · rw [if_pos hb] at hi
          injection hi with hi
          subst hi
          rfl
        · rw [if_neg hb] at hi
          exact (hd q i hi).1 hq
    | some ino =>
      refine ⟨fun _ _ => rfl, ?_, same.own, fun _ h => h, fun _ _ => rfl⟩
      intro i hi
      simp only [Function.update_apply]
      rw [if_neg (by rintro rfl; exact hi ((hd out i e).1 hp.owns))]
  | writing ino off cs =>
    simp only at hp
    cases cs with
    | nil => exact same
    | cons x cs =>
      simp only [step]
      refine ⟨fun _ _ => rfl, ?_, same.own, fun _ h => h, fun _ _ => rfl⟩
      intro i hi
      simp only [Function.update_apply]
      rw [if_neg (by rintro rfl; exact hi hp)]
  | finished => exact same
  | failed e => exact same

theorem Frame.diskOk {c : Cmd} {k : ℕ} {d d' : Disk} (h : Frame c k d d') (hd : DiskOk c k d) : DiskOk c k d' := by
  intro q i e
  by_cases hq : c.Owns q
  · have := h.own q i hq e
    exact ⟨fun _ => this, fun _ => mine_seen this⟩
  · rw [h.names q hq] at e
    exact hd q i e

theorem diskOk_initial {d : Disk} (h : d.Initial) (c : Cmd) (k : ℕ) : DiskOk c k d := by
  intro q i e
  rw [h q i e]
  exact ⟨fun h => h, fun h => h⟩

theorem alone_succ (c : Cmd) (k : ℕ) (d : Disk) (n : ℕ) : alone c k d (n + 1) = step c k (alone c k d n).1 (alone c k d n).2 := by
  unfold alone
  rw [Function.iterate_succ_apply']

/-- A process alone keeps to its own files. -/
theorem alone_ok {d : Disk} (h : d.Initial) (c : Cmd) (k n : ℕ) :
    PcOk c k (alone c k d n).2 ∧ DiskOk c k (alone c k d n).1 ∧ (∀ x, d.dirs x = true → (alone c k d n).1.dirs x = true) := by
  induction n with
  | zero => exact ⟨nextJob_ok c k 0 c.jobs fun _ h => h, diskOk_initial h c k, fun _ h => h⟩
  | succ n ih =>
    rw [alone_succ]
    have f := step_frame ih.1 ih.2.1
    exact ⟨(step_agree ih.1 ih.2.1 ⟨fun _ _ => rfl, fun _ _ => rfl, fun _ _ => rfl⟩).2.2, f.diskOk ih.2.1, fun x hx => f.grow x (ih.2.2 x hx)⟩

/-- What holds of all processes after any schedule. -/
structure Inv (cmds : ℕ → Cmd) (d : Disk) (n : ℕ → ℕ) (s : Sys) : Prop where
  pc : ∀ k, s.procs k = (alone (cmds k) k d (n k)).2
  disk : ∀ k, DiskOk (cmds k) k s.disk
  agree : ∀ k, Agree (cmds k) k s.disk (alone (cmds k) k d (n k)).1
  grow : ∀ x, d.dirs x = true → s.disk.dirs x = true
  rest : ∀ q, (∀ k, ¬ (cmds k).Owns q) → s.disk.names q = d.names q
  restData : ∀ q, (∀ k, ¬ (cmds k).Owns q) → s.disk.data (.orig q) = d.data (.orig q)

theorem Inv.move {cmds : ℕ → Cmd} {d : Disk} (hi : d.Initial) (hs : Separate cmds d) {n : ℕ → ℕ} {s : Sys} (h : Inv cmds d n s) (m : ℕ) :
    Inv cmds d (Function.update n m (n m + 1)) (s.move cmds m) := by
  have ha := alone_ok hi (cmds m) m (n m)
  have hp : PcOk (cmds m) m (s.procs m) := by rw [h.pc m]; exact ha.1
  have hst := step_agree hp (h.disk m) (h.agree m)
  have f := step_frame hp (h.disk m)
  have other : ∀ k, k ≠ m → DiskOk (cmds k) k (s.move cmds m).disk ∧ Agree (cmds k) k (s.move cmds m).disk (alone (cmds k) k d (n k)).1 := by
    intro k hk
    have n1 : ∀ q, (cmds k).Uses q → (s.move cmds m).disk.names q = s.disk.names q :=
      fun q hq => f.names q fun ho => hs.paths m k (Ne.symm hk) q ho hq
    have n2 : ∀ i, Seen (cmds k) k i → (s.move cmds m).disk.data i = s.disk.data i := by
      intro i hi'
      apply f.data
      intro hm
      cases i with
      | orig q => exact hs.paths m k (Ne.symm hk) q hm hi'
      | made p x => exact hk (hi'.symm.trans hm)
    refine ⟨?_, ⟨?_, ?_, ?_⟩⟩
    · intro q i e
      constructor
      · intro ho
        rw [n1 q (.inl ho)] at e
        exact (h.disk k q i e).1 ho
      · intro hu
        rw [n1 q hu] at e
        exact (h.disk k q i e).2 hu
    · intro q hq
      rw [n1 q hq, (h.agree k).names q hq]
    · intro i hi'
      rw [n2 i hi', (h.agree k).data i hi']
    · intro j hj
      by_cases e : d.dirs j.2.1 = true
      · rw [(alone_ok hi (cmds k) k (n k)).2.2 _ e]
        exact f.grow _ (h.grow _ e)
      · rw [← (h.agree k).dirs j hj]
        refine f.dirs _ fun j' hj' => ?_
        exact (hs.dirs k m hk j hj j' hj').resolve_left e
  refine ⟨?_, ?_, ?_, fun x hx => f.grow x (h.grow x hx), ?_, ?_⟩
  · intro k
    by_cases hk : k = m
    · subst hk
      show Function.update s.procs k _ k = _
      rw [Function.update_self, Function.update_self, alone_succ, ← h.pc k]
      exact hst.1
    · show Function.update s.procs m _ k = _
      rw [Function.update_of_ne hk, Function.update_of_ne hk, h.pc k]
  · intro k
    by_cases hk : k = m
    · subst hk; exact f.diskOk (h.disk k)
    · exact (other k hk).1
  · intro k
    by_cases hk : k = m
    · subst hk
      rw [Function.update_self, alone_succ, ← h.pc k]
      exact hst.2.1
    · rw [Function.update_of_ne hk]
      exact (other k hk).2
  · intro q hq
    rw [← h.rest q hq]
    exact f.names q (hq m)
  · intro q hq
    rw [← h.restData q hq]
    exact f.data (.orig q) (hq m)

theorem inv_run {cmds : ℕ → Cmd} {d : Disk} (hi : d.Initial) (hs : Separate cmds d) (schedule : List ℕ) :
    Inv cmds d (fun k => schedule.count k) (run cmds d schedule) := by
  have start : Inv cmds d (fun _ => 0) (Sys.start cmds d) :=
    ⟨fun _ => rfl, fun k => diskOk_initial hi (cmds k) k, fun _ => ⟨fun _ _ => rfl, fun _ _ => rfl, fun _ _ => rfl⟩, fun _ h => h, fun _ _ => rfl, fun _ _ => rfl⟩
  have go : ∀ (sch : List ℕ) (n : ℕ → ℕ) (s : Sys), Inv cmds d n s → Inv cmds d (fun k => n k + sch.count k) (sch.foldl (Sys.move cmds) s) := by
    intro sch
    induction sch with
    | nil => intro n s h; simpa using h
    | cons m r ih =>
      intro n s h
      have := ih _ _ (h.move hi hs m)
      rw [List.foldl_cons]
      convert this using 2 with k
      rw [List.count_cons]
      by_cases e : k = m
      · subst e
        rw [Function.update_self]
        simp
        omega
      · rw [Function.update_of_ne e]
        have : (m == k) = false := by simpa using fun h => e h.symm
        simp [this]
  have := go schedule _ _ start
  unfold run
  simpa using this

/-! ## One process -/

/-- Some steps of a process. -/
def Reach (c : Cmd) (k : ℕ) (x y : Disk × Proc) : Prop := ∃ m, (fun x : Disk × Proc => step c k x.1 x.2)^[m] x = y

theorem Reach.refl {c : Cmd} {k : ℕ} (x : Disk × Proc) : Reach c k x x := ⟨0, rfl⟩

theorem Reach.trans {c : Cmd} {k : ℕ} {x y z : Disk × Proc} (h : Reach c k x y) (h' : Reach c k y z) : Reach c k x z := by
  obtain ⟨m, rfl⟩ := h
  obtain ⟨m', rfl⟩ := h'
  exact ⟨m' + m, Function.iterate_add_apply _ m' m x⟩

theorem Reach.step {c : Cmd} {k : ℕ} {d : Disk} {s : Proc} {z : Disk × Proc} (h : Reach c k (step c k d s) z) : Reach c k (d, s) z := by
  obtain ⟨m, h⟩ := h
  exact ⟨m + 1, h⟩

theorem reach_reading (c : Cmd) (k : ℕ) (d : Disk) (out : Path) (rest : List Job) (n : ℕ) : ∀ (todo : List Path) (got : List (Option Bytes)),
    Reach c k (d, ⟨.reading todo got out, rest, n⟩) (d, ⟨.reading [] (got ++ todo.map d.view) out, rest, n⟩)
  | [], got => by rw [List.map_nil, List.append_nil]; exact .refl _
  | q :: todo, got => by
    apply Reach.step
    have := reach_reading c k d out rest n todo (got ++ [d.view q])
    rwa [List.append_assoc] at this

theorem reach_directory (c : Cmd) (k : ℕ) (d : Disk) (out : Path) (cs : List Bytes) (rest : List Job) (n : ℕ) :
    ∃ dirs, Reach c k (d, ⟨.directory out cs, rest, n⟩) ({ d with dirs := dirs }, ⟨.probing out 0 cs, rest, n⟩) := by
  cases e : d.dirs out.1 with
  | true =>
    refine ⟨d.dirs, .step ?_⟩
    simp only [Concurrent.step, e, if_true]
    exact .refl _
  | false =>
    refine ⟨fun x => d.dirs x || madeBy out.1 x, .step ?_⟩
    simp only [Concurrent.step, e, Bool.false_eq_true, if_false]
    apply Reach.step
    simp only [Concurrent.step, e, Bool.false_eq_true, if_false]
    exact .refl _

theorem reach_probing (c : Cmd) (k : ℕ) (d : Disk) (out : Path) (cs : List Bytes) (rest : List Job) (n : ℕ) : ∀ i,
    (∀ m, m < i → (d.names (candidate out m)).isSome = true) → Reach c k (d, ⟨.probing out 0 cs, rest, n⟩) (d, ⟨.probing out i cs, rest, n⟩)
  | 0, _ => .refl _
  | i + 1, h => by
    refine (reach_probing c k d out cs rest n i fun m hm => h m (by omega)).trans (.step ?_)
    simp only [Concurrent.step, h i (by omega), if_true]
    exact .refl _

/-- The disk has the files `fs`, each under one name, and only numbers below `n` are in use. -/
structure Holds (k n : ℕ) (d : Disk) (fs : FS Bytes) : Prop where
  view : ∀ q, d.view q = fs.get? q
  inj : ∀ q q' i, d.names q = some i → d.names q' = some i → q = q'
  fresh : ∀ q m, d.names q = some (.made k m) → m < n

theorem Holds.isSome {k n : ℕ} {d : Disk} {fs : FS Bytes} (h : Holds k n d fs) (q : Path) : (d.names q).isSome = true ↔ fs.get? q ≠ none := by
  rw [← h.view q]
  unfold Disk.view
  cases d.names q <;> simp

theorem Holds.isNone {k n : ℕ} {d : Disk} {fs : FS Bytes} (h : Holds k n d fs) (q : Path) : d.names q = none ↔ fs.get? q = none := by
  have := h.isSome q
  cases e : d.names q <;> rw [e] at this <;> simp at this <;> simp [this]

theorem writeAt_end (old bs : Bytes) : writeAt old old.length bs = old ++ bs := by
  unfold writeAt
  simp

theorem reach_writing (c : Cmd) (k : ℕ) (ino : Ino) (rest : List Job) (n : ℕ) : ∀ (cs : List Bytes) (d : Disk),
    Reach c k (d, ⟨.writing ino (d.data ino).length cs, rest, n⟩) ({ d with data := Function.update d.data ino (d.data ino ++ cs.flatten) }, Proc.nextJob n rest)
  | [], d => by
    apply Reach.step
    simp only [Concurrent.step, List.flatten_nil, List.append_nil, Function.update_eq_self]
    exact .refl _
  | x :: cs, d => by
    apply Reach.step
    simp only [Concurrent.step, writeAt_end]
    have := reach_writing c k ino rest n cs { d with data := Function.update d.data ino (d.data ino ++ x) }
    simp only [Function.update_self, Function.update_idem, List.length_append, List.append_assoc] at this
    rw [List.flatten_cons]
    exact this

/-- A round of a process is a write of the sequential model. -/
theorem reach_write {c : Cmd} {k n : ℕ} {d : Disk} {fs : FS Bytes} (h : Holds k n d fs) (out : Path) (cs : List Bytes) (rest : List Job) :
    ∃ d', Reach c k (d, ⟨.directory out cs, rest, n⟩) (d', Proc.nextJob (n + 1) rest) ∧ Holds k (n + 1) d' (WriteOp.run fs ⟨out, cs⟩) := by
  obtain ⟨dirs, r1⟩ := reach_directory c k d out cs rest n
  have h1 : Holds k n { d with dirs := dirs } fs := ⟨h.view, h.inj, h.fresh⟩
  generalize hd1 : ({ d with dirs := dirs } : Disk) = d1 at r1 h1
  -- the backup
  have mid : ∃ d2 fs1, preparePath fs out = .ok fs1 ∧ Holds k n d2 fs1 ∧ d2.names out = none ∧
      Reach c k (d1, ⟨.probing out 0 cs, rest, n⟩) (d2, ⟨.opening out cs, rest, n⟩) := by
    rcases backupTarget_spec fs out with ⟨e1, e2⟩ | ⟨e1, i, hi, -, hall, hfree, e2⟩
    · have : d1.names out = none := (h1.isNone out).mpr e1
      refine ⟨d1, fs, by simp [preparePath, e2], h1, this, .step ?_⟩
      simp only [Concurrent.step, candidate, if_true, this, Option.isSome_none, Bool.false_eq_true, if_false]
      exact .refl _
    · have hb : d1.names (backupPath out i) = none := (h1.isNone _).mpr hfree
      have i0 : i ≠ 0 := by omega
      obtain ⟨ino, hino⟩ := Option.isSome_iff_exists.mp ((h1.isSome out).mpr e1)
      obtain ⟨x, hx⟩ := Option.ne_none_iff_exists'.mp e1
      refine ⟨{ d1 with names := Function.update (Function.update d1.names out none) (backupPath out i) (some ino) }, fs.rename out (backupPath out i), by simp [preparePath, e2], ?_, ?_, ?_⟩
      · have hr : fs.rename out (backupPath out i) = (fs.remove out).put (backupPath out i) x := by simp [FS.rename, hx]
        have vx : d1.data ino = x := by
          have := h1.view out
          unfold Disk.view at this
          rw [hino, hx] at this
          simpa using this
        refine ⟨?_, ?_, ?_⟩
        · intro q
          rw [hr, get?_put, get?_remove]
          unfold Disk.view
          simp only [Function.update_apply]
          by_cases q1 : q = backupPath out i
          · rw [if_pos q1, if_pos q1, Option.map_some, vx]
          · rw [if_neg q1, if_neg q1]
            by_cases q2 : q = out
            · rw [if_pos q2, if_pos q2]; rfl
            · rw [if_neg q2, if_neg q2]; exact h1.view q
        · intro q q' j
          simp only [Function.update_apply]
          by_cases q1 : q = backupPath out i <;> by_cases q1' : q' = backupPath out i
          · intro _ _; rw [q1, q1']
          · rw [if_pos q1, if_neg q1']
            by_cases q2 : q' = out
            · rw [if_pos q2]; intro _ hc; cases hc
            · rw [if_neg q2]
              intro ej hc
              injection ej with ej
              subst ej
              exact absurd (h1.inj q' out _ hc hino) q2
          · rw [if_neg q1, if_pos q1']
            by_cases q2 : q = out
            · rw [if_pos q2]; intro hc; cases hc
            · rw [if_neg q2]
              intro hc ej
              injection ej with ej
              subst ej
              exact absurd (h1.inj q out _ hc hino) q2
          · rw [if_neg q1, if_neg q1']
            by_cases q2 : q = out
            · rw [if_pos q2]; intro hc; cases hc
            · by_cases q2' : q' = out
              · rw [if_pos q2']; intro _ hc; cases hc
              · rw [if_neg q2, if_neg q2']; exact h1.inj q q' j
        · intro q m
          simp only [Function.update_apply]
          by_cases q1 : q = backupPath out i
          · rw [if_pos q1]
            intro ej
            injection ej with ej
            subst ej
            exact h1.fresh out m hino
          · rw [if_neg q1]
            by_cases q2 : q = out
            · rw [if_pos q2]; intro hc; cases hc
            · rw [if_neg q2]; exact h1.fresh q m
      · simp only [Function.update_apply]
        rw [if_neg (backupPath_ne _ _).symm, if_pos trivial]
      · refine (reach_probing c k d1 out cs rest n i ?_).trans ?_
        · intro m hm
          unfold candidate
          by_cases m0 : m = 0
          · rw [if_pos m0, hino]; rfl
          · rw [if_neg m0]
            exact (h1.isSome _).mpr (hall m (by omega) hm)
        · apply Reach.step
          simp only [Concurrent.step, candidate, if_neg i0, hb, Option.isSome_none, Bool.false_eq_true, if_false]
          apply Reach.step
          simp only [Concurrent.step, hino]
          exact .refl _
  obtain ⟨d2, fs1, e1, h2, hfree, r2⟩ := mid
  have free : fs1.get? out = none := (h2.isNone out).mp hfree
  refine ⟨⟨Function.update d2.names out (some (.made k n)), Function.update d2.data (.made k n) cs.flatten, d2.dirs⟩, (r1.trans r2).trans (.step ?_), ?_⟩
  · simp only [Concurrent.step, hfree]
    have := reach_writing c k (.made k n) rest (n + 1) cs ⟨Function.update d2.names out (some (.made k n)), Function.update d2.data (.made k n) [], d2.dirs⟩
    simp only [Function.update_self, Function.update_idem, List.length_nil, List.nil_append] at this
    exact this
  · rw [run_eq (op := ⟨out, cs⟩) e1]
    have ne : ∀ q i, d2.names q = some i → i ≠ .made k n := by
      rintro q i e rfl
      exact absurd (h2.fresh q n e) (lt_irrefl _)
    refine ⟨?_, ?_, ?_⟩
    · intro q
      rw [get?_put]
      unfold Disk.view
      simp only [Function.update_apply]
      by_cases q1 : q = out
      · rw [if_pos q1, if_pos q1, Option.map_some, Function.update_self]
      · rw [if_neg q1, if_neg q1, ← h2.view q]
        unfold Disk.view
        cases e : d2.names q with
        | none => rfl
        | some i =>
          rw [Option.map_some, Option.map_some, Function.update_of_ne (ne q i e)]
    · intro q q' j
      simp only [Function.update_apply]
      by_cases q1 : q = out <;> by_cases q1' : q' = out
      · intro _ _; rw [q1, q1']
      · rw [if_pos q1, if_neg q1']
        intro ej hc
        injection ej with ej
        exact absurd ej.symm (ne q' j hc)
      · rw [if_neg q1, if_pos q1']
        intro hc ej
        injection ej with ej
        exact absurd ej.symm (ne q j hc)
      · rw [if_neg q1, if_neg q1']; exact h2.inj q q' j
    · intro q m
      simp only [Function.update_apply]
      by_cases q1 : q = out
      · rw [if_pos q1]
        intro ej
        injection ej with ej
        injection ej with _ ej
        omega
      · rw [if_neg q1]
        intro e
        have := h2.fresh q m e
        omega

/-- A process runs as in the sequential model, and ends. -/
theorem reach_jobs (c : Cmd) (k : ℕ) : ∀ (jobs : List Job) (n : ℕ) (d : Disk) (fs : FS Bytes), Holds k n d fs →
    ∃ d' s, Reach c k (d, Proc.nextJob n jobs) (d', s) ∧ s.Ended ∧ ∀ q, d'.view q = (runJobs c.content c.chunks fs jobs).get? q
  | [], n, d, fs, h => ⟨d, _, .refl _, .inl rfl, h.view⟩
  | j :: rest, n, d, fs, h => by
    have r1 := reach_reading c k d j.2 rest n j.1 []
    rw [List.nil_append, List.map_congr_left fun q _ => h.view q] at r1
    cases e : c.content (j.1.map fs.get?) with
    | error x =>
      refine ⟨d, ⟨.failed x, rest, n⟩, r1.trans (.step ?_), .inr ⟨x, rfl⟩, ?_⟩
      · simp only [Concurrent.step, e]; exact .refl _
      · intro q; rw [runJobs, e]; exact h.view q
    | ok b =>
      obtain ⟨d1, r2, h1⟩ := reach_write (c := c) h j.2 (c.chunks b) rest
      obtain ⟨d2, s, r3, hs, hv⟩ := reach_jobs c k rest (n + 1) d1 _ h1
      refine ⟨d2, s, r1.trans (.step ?_), hs, ?_⟩
      · simp only [Concurrent.step, e]; exact r2.trans r3
      · intro q; rw [runJobs, e]; exact hv q

theorem holds_ofFS (k : ℕ) (fs : FS Bytes) (dirs : Text → Bool) : Holds k 0 (Disk.ofFS fs dirs) fs := by
  have hn : ∀ q i, (Disk.ofFS fs dirs).names q = some i → i = .orig q := by
    intro q i e
    simp only [Disk.ofFS] at e
    by_cases x : fs.exists? q = true
    · rw [if_pos x] at e; injection e with e; exact e.symm
    · rw [if_neg x] at e; cases e
  refine ⟨?_, ?_, ?_⟩
  · intro q
    unfold Disk.view
    simp only [Disk.ofFS]
    by_cases x : fs.exists? q = true
    · rw [if_pos x, Option.map_some]
      obtain ⟨y, hy⟩ := Option.ne_none_iff_exists'.mp ((exists?_iff fs q).mp x)
      simp only [hy, Option.getD_some]
    · rw [if_neg x]
      have : ¬ fs.get? q ≠ none := fun h => x ((exists?_iff fs q).mpr h)
      rw [not_not.mp this]; rfl
  · intro q q' i e e'
    have a := hn q i e
    have b := hn q' i e'
    rw [a] at b
    injection b
  · intro q m e
    cases hn q _ e

theorem initial_ofFS (fs : FS Bytes) (dirs : Text → Bool) : (Disk.ofFS fs dirs).Initial := by
  intro q i e
  simp only [Disk.ofFS] at e
  by_cases x : fs.exists? q = true
  · rw [if_pos x] at e; injection e with e; exact e.symm
  · rw [if_neg x] at e; cases e

theorem ended_stays {c : Cmd} {k : ℕ} {d : Disk} {s : Proc} (h : s.Ended) : step c k d s = (d, s) := by
  obtain ⟨pc, rest, n⟩ := s
  rcases h with h | ⟨e, h⟩ <;> (simp only at h; subst h; rfl)

theorem alone_stays {c : Cmd} {k : ℕ} {d : Disk} {n : ℕ} (h : (alone c k d n).2.Ended) : ∀ m, n ≤ m → alone c k d m = alone c k d n := by
  intro m hm
  induction m, hm using Nat.le_induction with
  | base => rfl
  | succ m _ ih => rw [alone_succ, ih, ended_stays h]

/-! ## Nothing is lost -/

/-- All files of the start are there, under their names or as backups, and the process is at a place that keeps them. -/
def Kept (c : Cmd) (k : ℕ) (d0 : Disk) (x : Disk × Proc) : Prop :=
  (∀ q0, d0.names q0 = some (.orig q0) → ∃ q, x.1.names q = some (.orig q0) ∧ (q = q0 ∨ ∃ out i, IsOut c out ∧ q = backupPath out i)) ∧
  (∀ q, x.1.data (.orig q) = d0.data (.orig q)) ∧
  match x.2.pc with
  | .moving out b _ => x.1.names b = none ∧ ∃ i, b = backupPath out i
  | .opening out _ => x.1.names out = none
  | .writing ino _ _ => ∃ m, ino = .made k m
  | _ => True

theorem step_kept {c : Cmd} {k : ℕ} {d0 d : Disk} {s : Proc} (hp : PcOk c k s) (h : Kept c k d0 (d, s)) : Kept c k d0 (step c k d s) := by
  obtain ⟨pc, rest, n⟩ := s
  obtain ⟨h1, h2, h3⟩ := h
  simp only at h1 h2
  cases pc with
  | reading todo got out =>
    cases todo with
    | nil =>
      simp only [step]
      cases c.content got <;> exact ⟨h1, h2, trivial⟩
    | cons q todo => exact ⟨h1, h2, trivial⟩
  | directory out cs =>
    simp only [step]
    refine ⟨h1, h2, ?_⟩
    cases d.dirs out.1 <;> exact trivial
  | makedirs out cs =>
    simp only [step]
    cases d.dirs out.1 <;> exact ⟨h1, h2, trivial⟩
  | probing out i cs =>
    simp only [step]
    refine ⟨h1, h2, ?_⟩
    by_cases e : (d.names (candidate out i)).isSome = true
    · simp only [if_pos e]
    · have e' : d.names (candidate out i) = none := by simpa using e
      by_cases i0 : i = 0
      · simp only [if_neg e, if_pos i0]
        rwa [i0, candidate, if_pos rfl] at e'
      · simp only [if_neg e, if_neg i0]
        exact ⟨e', i, by rw [candidate, if_neg i0]⟩
  | moving out b cs =>
    simp only at h3
    obtain ⟨hb, i, rfl⟩ := h3
    simp only [step]
    cases e : d.names out with
    | none => exact ⟨h1, h2, trivial⟩
    | some ino =>
      refine ⟨?_, h2, ?_⟩
      · intro q0 e0
        obtain ⟨q, hq, hor⟩ := h1 q0 e0
        by_cases qo : q = out
        · subst qo
          refine ⟨backupPath q i, ?_, .inr ⟨q, i, hp.2.1, rfl⟩⟩
          simp only [Function.update_self]
          rw [← e, hq]
        · have qb : q ≠ backupPath out i := by rintro rfl; rw [hb] at hq; cases hq
          refine ⟨q, ?_, hor⟩
          simp only [Function.update_apply]
          rw [if_neg qb, if_neg qo, hq]
      · simp only [Function.update_apply]
        rw [if_neg (backupPath_ne _ _).symm, if_pos trivial]
  | opening out cs =>
    simp only at h3
    simp only [step, h3]
    refine ⟨?_, ?_, n, rfl⟩
    · intro q0 e0
      obtain ⟨q, hq, hor⟩ := h1 q0 e0
      have qo : q ≠ out := by rintro rfl; rw [h3] at hq; cases hq
      exact ⟨q, by simp only [Function.update_apply]; rw [if_neg qo, hq], hor⟩
    · intro q
      simp only [Function.update_apply]
      rw [if_neg (by rintro ⟨⟩), h2 q]
  | writing ino off cs =>
    simp only at h3
    obtain ⟨m, rfl⟩ := h3
    cases cs with
    | nil =>
      simp only [step]
      refine ⟨h1, h2, ?_⟩
      cases rest <;> exact trivial
    | cons x cs =>
      simp only [step]
      refine ⟨h1, ?_, m, rfl⟩
      intro q
      simp only [Function.update_apply]
      rw [if_neg (by rintro ⟨⟩), h2 q]
  | finished => exact ⟨h1, h2, trivial⟩
  | failed e => exact ⟨h1, h2, trivial⟩

theorem alone_kept {d : Disk} (hi : d.Initial) (c : Cmd) (k n : ℕ) : Kept c k d (alone c k d n) := by
  induction n with
  | zero =>
    refine ⟨fun q0 e => ⟨q0, e, .inl rfl⟩, fun _ => rfl, ?_⟩
    unfold alone
    simp only [Function.iterate_zero, id]
    cases c.jobs <;> exact trivial
  | succ n ih =>
    rw [alone_succ]
    exact step_kept (alone_ok hi c k n).1 ih

end Strata.Concurrent
