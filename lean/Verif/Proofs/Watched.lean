import Verif.Proofs.Concurrent
import Verif.Spec.Watched
/-!
# What is at the paths of a command while it runs
-/
namespace Strata.Concurrent
open Strata Strata.Files Strata.Killed Strata.Bytes

/-- The command is in round `m`, whose output is `out`, and is about to write `cs`. -/
def Current (c : Cmd) (d0 : Disk) (m : ℕ) (rest : List Job) (out : Path) (cs : List Bytes) : Prop :=
  ∃ j, c.jobs.drop m = j :: rest ∧ j.2 = out ∧ c.Writes d0 j cs.flatten

/-- The place of the process. -/
def PcWatched (c : Cmd) (k : ℕ) (d0 d : Disk) (s : Proc) : Prop :=
  match s.pc with
  | .reading todo got out => ∃ j, c.jobs.drop s.next = j :: s.rest ∧ j.2 = out ∧ got ++ todo.map d0.view = j.1.map d0.view ∧ ∀ q ∈ todo, q ∈ j.1
  | .directory out cs | .makedirs out cs | .probing out _ cs => Current c d0 s.next s.rest out cs
  | .moving out b cs => Current c d0 s.next s.rest out cs ∧ d.names b = none ∧ ∃ i, b = backupPath out i
  | .opening out cs => Current c d0 s.next s.rest out cs ∧ d.names out = none
  | .writing ino off cs => ∃ m j, ino = .made k m ∧ s.next = m + 1 ∧ c.jobs.drop m = j :: s.rest ∧ off = (d.data ino).length ∧ c.Writes d0 j (d.data ino ++ cs.flatten)
  | _ => True

/-- What holds at any moment. -/
structure Watched (c : Cmd) (k : ℕ) (d0 : Disk) (x : Disk × Proc) : Prop where
  other : ∀ q, ¬ c.Owns q → x.1.names q = d0.names q
  data : ∀ p, x.1.data (.orig p) = d0.data (.orig p)
  orig : ∀ q p, x.1.names q = some (.orig p) → d0.names p = some (.orig p) ∧ (q = p ∨ ∃ i, IsOut c p ∧ q = backupPath p i)
  made : ∀ q p m, x.1.names q = some (.made p m) → p = k ∧ m < x.2.next ∧ ∃ j b, c.jobs[m]? = some j ∧ q = j.2 ∧ c.Writes d0 j b ∧ x.1.data (.made k m) <+: b
  pc : PcWatched c k d0 x.1 x.2

theorem drop_get {α : Type} {l : List α} {m : ℕ} {j : α} {r : List α} (h : l.drop m = j :: r) : l[m]? = some j ∧ l.drop (m + 1) = r ∧ j ∈ l := by
  have e : l[m]? = some j := by
    have := congrArg List.head? h
    rwa [List.head?_drop, List.head?_cons] at this
  refine ⟨e, ?_, List.mem_of_getElem? e⟩
  rw [← List.tail_drop, h]
  rfl

theorem nextJob_watched (c : Cmd) (k : ℕ) (d0 d : Disk) (n : ℕ) (rest : List Job) (h : c.jobs.drop n = rest) : PcWatched c k d0 d (Proc.nextJob n rest) := by
  cases rest with
  | nil => exact trivial
  | cons j r => exact ⟨j, h, rfl, by simp, fun _ h => h⟩

theorem nextJob_next (n : ℕ) (rest : List Job) : (Proc.nextJob n rest).next = n := by cases rest <;> rfl

theorem same_job {c : Cmd} (ht : c.Tidy) {m m' : ℕ} {j j' : Job} (h : c.jobs[m]? = some j) (h' : c.jobs[m']? = some j') (e : j.2 = j'.2) : m = m' := by
  have hn := ht.once
  rw [List.nodup_iff_injective_get] at hn
  obtain ⟨l, rfl⟩ := List.getElem?_eq_some_iff.mp h
  obtain ⟨l', rfl⟩ := List.getElem?_eq_some_iff.mp h'
  have := @hn ⟨m, by simpa using l⟩ ⟨m', by simpa using l'⟩ (by simpa using e)
  simpa using this

theorem not_backup_of {c : Cmd} (ht : c.Tidy) {p q : Path} (hp : IsOut c p) (hq : IsOut c q) (i : ℕ) : p ≠ backupPath q i := by
  obtain ⟨j, hj, rfl⟩ := hp
  obtain ⟨j', hj', rfl⟩ := hq
  exact ht.names j hj j' hj' i

theorem step_watched {c : Cmd} {k : ℕ} {d0 d : Disk} {s : Proc} (hi : d0.Initial) (ht : c.Tidy) (h : Watched c k d0 (d, s)) : Watched c k d0 (step c k d s) := by
  obtain ⟨pc, rest, n⟩ := s
  obtain ⟨h1, h2, h3, h4, h5⟩ := h
  simp only at h1 h2 h3 h4 h5
  have keep : ∀ pc', PcWatched c k d0 d ⟨pc', rest, n⟩ → Watched c k d0 (d, ⟨pc', rest, n⟩) := fun pc' h => ⟨h1, h2, h3, h4, h⟩
  have cur : ∀ {out cs}, Current c d0 n rest out cs → IsOut c out := fun ⟨j, hj, ho, _⟩ => ⟨j, (drop_get hj).2.2, ho⟩
  cases pc with
  | reading todo got out =>
    obtain ⟨j, hj, ho, hgot, hmem⟩ := h5
    cases todo with
    | nil =>
      simp only [step]
      rw [List.map_nil, List.append_nil] at hgot
      cases e : c.content got with
      | error e => exact keep _ trivial
      | ok b => exact keep _ ⟨j, hj, ho, b, by rw [← hgot, e], rfl⟩
    | cons q todo =>
      simp only [step]
      refine keep _ ⟨j, hj, ho, ?_, fun p hp => hmem p (List.mem_cons_of_mem _ hp)⟩
      have hq : c.Reads q := ⟨j, (drop_get hj).2.2, hmem q List.mem_cons_self⟩
      have hv : d.view q = d0.view q := by
        unfold Disk.view
        rw [h1 q (ht.reads q hq)]
        cases e : d0.names q with
        | none => rfl
        | some i => rw [hi q i e, Option.map_some, Option.map_some, h2 q]
      rw [← hgot, hv, List.append_assoc]
      rfl
  | directory out cs =>
    simp only [step]
    cases d.dirs out.1 <;> exact keep _ h5
  | makedirs out cs =>
    simp only [step]
    cases d.dirs out.1 with
    | true => exact keep _ trivial
    | false => exact ⟨h1, h2, h3, h4, h5⟩
  | probing out i cs =>
    simp only [step]
    apply keep
    by_cases e : (d.names (candidate out i)).isSome = true
    · simp only [if_pos e]; exact h5
    · have e' : d.names (candidate out i) = none := by simpa using e
      by_cases i0 : i = 0
      · simp only [if_neg e, if_pos i0]
        rw [i0, candidate, if_pos rfl] at e'
        exact ⟨h5, e'⟩
      · simp only [if_neg e, if_neg i0]
        exact ⟨h5, e', i, by rw [candidate, if_neg i0]⟩
  | moving out b cs =>
    obtain ⟨h5, hb, i, rfl⟩ := h5
    have hout := cur h5
    obtain ⟨j, hj, hjo, hw⟩ := h5
    simp only at hj
    simp only [step]
    cases e : d.names out with
    | none => exact keep _ trivial
    | some ino =>
      -- only a file of the start can be in the way
      obtain ⟨p, rfl⟩ : ∃ p, ino = .orig p := by
        cases ino with
        | orig p => exact ⟨p, rfl⟩
        | made p m =>
          obtain ⟨-, hm, j', -, hj', ho', -⟩ := h4 out p m e
          exact absurd (same_job ht hj' (drop_get hj).1 (by rw [← ho', hjo])) (by omega)
      obtain ⟨e0, hor⟩ := h3 out p e
      obtain rfl : out = p := by
        rcases hor with rfl | ⟨i', hp, he⟩
        · rfl
        · exact absurd he (not_backup_of ht hout hp i')
      refine ⟨?_, h2, ?_, ?_, ?_⟩
      · intro q hq
        simp only [Function.update_apply]
        rw [if_neg (by rintro rfl; exact hq (hout.backup i)), if_neg (by rintro rfl; exact hq hout.owns), h1 q hq]
      · intro q p hp
        simp only [Function.update_apply] at hp
        by_cases q1 : q = backupPath out i
        · rw [if_pos q1] at hp
          injection hp with hp
          injection hp with hp
          subst hp
          exact ⟨e0, .inr ⟨i, hout, q1⟩⟩
        · rw [if_neg q1] at hp
          by_cases q2 : q = out
          · rw [if_pos q2] at hp; cases hp
          · rw [if_neg q2] at hp
            exact h3 q p hp
      · intro q p m hp
        simp only [Function.update_apply] at hp
        by_cases q1 : q = backupPath out i
        · rw [if_pos q1] at hp
          injection hp with hp
          cases hp
        · rw [if_neg q1] at hp
          by_cases q2 : q = out
          · rw [if_pos q2] at hp; cases hp
          · rw [if_neg q2] at hp
            exact h4 q p m hp
      · refine ⟨⟨j, hj, hjo, hw⟩, ?_⟩
        simp only [Function.update_apply]
        rw [if_neg (backupPath_ne _ _).symm, if_pos trivial]
  | opening out cs =>
    obtain ⟨h5, hn⟩ := h5
    have hout := cur h5
    obtain ⟨j, hj, hjo, hw⟩ := h5
    simp only at hj
    simp only [step, hn]
    refine ⟨?_, ?_, ?_, ?_, ?_⟩
    · intro q hq
      simp only [Function.update_apply]
      rw [if_neg (by rintro rfl; exact hq hout.owns), h1 q hq]
    · intro p
      simp only [Function.update_apply]
      rw [if_neg (by rintro ⟨⟩), h2 p]
    · intro q p hp
      simp only [Function.update_apply] at hp
      by_cases q1 : q = out
      · rw [if_pos q1] at hp; injection hp with hp; cases hp
      · rw [if_neg q1] at hp; exact h3 q p hp
    · intro q p m hp
      simp only [Function.update_apply] at hp
      by_cases q1 : q = out
      · rw [if_pos q1] at hp
        injection hp with hp
        injection hp with hp1 hp2
        subst hp2
        refine ⟨hp1.symm, by simp, j, _, (drop_get hj).1, by rw [q1, hjo], hw, ?_⟩
        simp
      · rw [if_neg q1] at hp
        obtain ⟨a1, a2, j', b, a3, a4, a5, a6⟩ := h4 q p m hp
        refine ⟨a1, by simp only; omega, j', b, a3, a4, a5, ?_⟩
        simp only [Function.update_apply]
        rw [if_neg (by rintro ⟨⟩; omega)]
        exact a6
    · exact ⟨n, j, rfl, rfl, hj, by simp, by simpa using hw⟩
  | writing ino off cs =>
    obtain ⟨m, j, rfl, hn, hj, hoff, hw⟩ := h5
    simp only at hn hj
    cases cs with
    | nil =>
      simp only [step]
      refine ⟨h1, h2, h3, ?_, ?_⟩
      · rw [nextJob_next]; exact h4
      · exact nextJob_watched c k d0 d n rest (by rw [hn]; exact (drop_get hj).2.1)
    | cons x cs =>
      simp only [step]
      rw [hoff, writeAt_end]
      refine ⟨h1, ?_, h3, ?_, ?_⟩
      · intro p
        simp only [Function.update_apply]
        rw [if_neg (by rintro ⟨⟩), h2 p]
      · intro q p m' hp
        obtain ⟨a1, a2, j', b, a3, a4, a5, a6⟩ := h4 q p m' hp
        by_cases hm : m' = m
        · subst hm
          rw [(drop_get hj).1] at a3
          injection a3 with a3
          subst a3
          refine ⟨a1, a2, j, _, (drop_get hj).1, a4, hw, ?_⟩
          simp only [Function.update_self, List.flatten_cons]
          exact ⟨cs.flatten, by simp⟩
        · refine ⟨a1, a2, j', b, a3, a4, a5, ?_⟩
          simp only [Function.update_apply]
          rw [if_neg (by rintro ⟨⟩; exact hm rfl)]
          exact a6
      · refine ⟨m, j, rfl, hn, hj, ?_, ?_⟩
        · simp
        · simpa using hw
  | finished => exact ⟨h1, h2, h3, h4, trivial⟩
  | failed e => exact ⟨h1, h2, h3, h4, trivial⟩

theorem alone_watched {d : Disk} (hi : d.Initial) (c : Cmd) (ht : c.Tidy) (k n : ℕ) : Watched c k d (alone c k d n) := by
  induction n with
  | zero =>
    refine ⟨fun _ _ => rfl, fun _ => rfl, ?_, ?_, nextJob_watched c k d d 0 c.jobs rfl⟩
    · intro q p e
      have := hi q _ e
      injection this with this
      subst this
      exact ⟨e, .inl rfl⟩
    · intro q p m e
      have := hi q _ e
      cases this
  | succ n ih =>
    rw [alone_succ]
    exact step_watched hi ht ih

end Strata.Concurrent
