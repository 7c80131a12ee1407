import Verif.Model.Killed
import Verif.Proofs.Driver
/-!
# Lemmas about runs that are killed
-/
namespace Strata.Killed
open Strata Strata.Files Strata.Driver Strata.Flow Strata.Bytes

theorem put_put {γ : Type} (fs : FS γ) (p : Path) (c c' : γ) : (fs.put p c).put p c' = fs.put p c' := by
  unfold FS.put
  rw [show FS.remove ((p, c) :: fs.remove p) p = fs.remove p from remove_put fs p c]

theorem appends (p : Path) (fs : FS Bytes) : ∀ (cs : List Bytes) (x : Bytes),
    (cs.map (Step.append p)).foldl Step.run (fs.put p x) = fs.put p (x ++ cs.flatten)
  | [], x => by simp
  | c :: cs, x => by
    have h : Step.run (fs.put p x) (.append p c) = fs.put p (x ++ c) := by
      simp only [Step.run, get?_put, if_true, put_put]
    rw [List.map_cons, List.foldl_cons, h, appends p fs cs, List.flatten_cons, List.append_assoc]

/-- The state after `prepare_path`, and the steps leading there. -/
theorem prepared_steps (fs : FS Bytes) (op : WriteOp) : ∃ (fs1 : FS Bytes) (pre : List Step), preparePath fs op.path = .ok fs1 ∧ pre.length ≤ 1 ∧
    pre.foldl Step.run fs = fs1 ∧ op.steps fs = pre ++ (.create op.path :: op.chunks.map (.append op.path)) ∧
    ∀ (k : ℕ) (s : Step), pre[k]? = some s → ∀ p bs, s ≠ Step.append p bs := by
  rcases backupTarget_spec fs op.path with ⟨h1, h2⟩ | ⟨h1, i, hi, _, _, hfree, h2⟩
  · exact ⟨fs, [], by simp [preparePath, h2], by simp, rfl, by simp [WriteOp.steps, h2], by simp⟩
  · refine ⟨fs.rename op.path (backupPath op.path i), [.rename op.path (backupPath op.path i)], by simp [preparePath, h2], by simp, rfl,
      by simp [WriteOp.steps, h2], ?_⟩
    intro k s hs p bs hc
    subst hc
    rcases k with _ | k <;> simp at hs

/-- A complete write. -/
theorem run_eq {fs fs1 : FS Bytes} {op : WriteOp} (h : preparePath fs op.path = .ok fs1) : op.run fs = fs1.put op.path op.chunks.flatten := by
  obtain ⟨fs2, pre, h2, -, hf, hst, -⟩ := prepared_steps fs op
  obtain rfl : fs1 = fs2 := Except.ok.inj (h.symm.trans h2)
  rw [WriteOp.run, hst, List.foldl_append, hf, List.foldl_cons, Step.run, appends, List.nil_append]

/-- A write that ends early. -/
theorem crash_eq {fs fs1 : FS Bytes} {op : WriteOp} (k m : ℕ) (h : preparePath fs op.path = .ok fs1) :
    op.crash fs k m = fs ∨ op.crash fs k m = fs1 ∨ ∃ x, x <+: op.chunks.flatten ∧ op.crash fs k m = fs1.put op.path x := by
  obtain ⟨fs2, pre, h2, hl, hf, hst, hno⟩ := prepared_steps fs op
  obtain rfl : fs1 = fs2 := Except.ok.inj (h.symm.trans h2)
  unfold WriteOp.crash
  simp only [hst]
  by_cases hk : k ≤ pre.length
  · have hget : (pre ++ (Step.create op.path :: op.chunks.map (Step.append op.path)))[k]? =
        if k < pre.length then pre[k]? else some (.create op.path) := by
      rw [List.getElem?_append]
      split
      · rfl
      · have : k - pre.length = 0 := by omega
        simp [this]
    rw [List.take_append_of_le_length hk, hget]
    have hres : (pre.take k).foldl Step.run fs = fs ∨ (pre.take k).foldl Step.run fs = fs1 := by
      by_cases hk' : k = pre.length
      · rw [hk', List.take_length]; exact .inr hf
      · have : k = 0 := by omega
        rw [this, List.take_zero]; exact .inl rfl
    split
    · rename_i s p bs heq
      split at heq
      · exact absurd rfl (hno k _ heq p bs)
      · simp at heq
    · rcases hres with h | h
      · exact .inl h
      · exact .inr (.inl h)
  · obtain ⟨j, rfl⟩ : ∃ j, k = pre.length + (j + 1) := ⟨k - pre.length - 1, by omega⟩
    have hget : (pre ++ (Step.create op.path :: op.chunks.map (Step.append op.path)))[pre.length + (j + 1)]? =
        op.chunks[j]?.map (Step.append op.path) := by
      rw [List.getElem?_append_right (by omega)]
      simp
    rw [hget, List.take_length_add_append, List.foldl_append, hf, List.take_succ_cons, List.foldl_cons, Step.run, ← List.map_take, appends, List.nil_append]
    right; right
    rcases hj : op.chunks[j]? with _ | bs
    · refine ⟨(op.chunks.take j).flatten, ?_, rfl⟩
      conv_rhs => rw [← List.take_append_drop j op.chunks, List.flatten_append]
      exact List.prefix_append _ _
    · refine ⟨(op.chunks.take j).flatten ++ bs.take m, ?_, ?_⟩
      · have hjl : j < op.chunks.length := by
          by_contra hc
          rw [List.getElem?_eq_none (by omega)] at hj
          simp at hj
        have hbs : op.chunks[j] = bs := by
          rw [List.getElem?_eq_getElem hjl] at hj; simpa using hj
        have hsplit : op.chunks.flatten = (op.chunks.take j).flatten ++ (bs ++ (op.chunks.drop (j+1)).flatten) := by
          conv_lhs => rw [← List.take_append_drop j op.chunks, List.flatten_append]
          rw [List.drop_eq_getElem_cons hjl, List.flatten_cons, hbs]
        rw [hsplit, List.prefix_append_right_inj]
        exact (List.take_prefix _ _).trans (List.prefix_append _ _)
      · simp only [Option.map_some, Step.run, get?_put, if_true, put_put]

/-- All that `prepare_path` does to the files. -/
theorem prepared (fs : FS Bytes) (p : Path) (hw : fs.Wf) : ∃ fs1, preparePath fs p = .ok fs1 ∧ fs1.Wf ∧ fs1.contents.Perm fs.contents ∧ fs1.get? p = none ∧
    ∀ r, r ≠ p → (fs.get? r ≠ none ∨ ∀ i, r ≠ backupPath p i) → fs1.get? r = fs.get? r := by
  rcases backupTarget_spec fs p with ⟨h1, h2⟩ | ⟨h1, i, hi, _, _, hfree, h2⟩
  · exact ⟨fs, by simp [preparePath, h2], hw, List.Perm.refl _, h1, fun _ _ _ => rfl⟩
  · obtain ⟨c, hc⟩ := Option.ne_none_iff_exists'.mp h1
    obtain ⟨hwf, hperm, hget⟩ := rename_spec fs p (backupPath p i) c hw (backupPath_ne _ _) hc hfree
    refine ⟨fs.rename p (backupPath p i), by simp [preparePath, h2], hwf, hperm, ?_, ?_⟩
    · rw [hget, if_neg (backupPath_ne _ _).symm, if_pos rfl]
    · intro r hr hor
      have : r ≠ backupPath p i := by
        rcases hor with h | h
        · rintro rfl; exact h hfree
        · exact h i
      rw [hget, if_neg this, if_neg hr]

theorem put_free {fs : FS Bytes} {p : Path} (h : fs.get? p = none) (c : Bytes) : (fs.put p c).contents = c :: fs.contents := by
  rw [put_contents, remove_of_free _ _ h]

/-- One complete round. -/
theorem run_props (fs : FS Bytes) (op : WriteOp) (hw : fs.Wf) : (op.run fs).Wf ∧ (op.run fs).contents.Perm (op.chunks.flatten :: fs.contents) ∧
    (op.run fs).get? op.path = some op.chunks.flatten ∧
    ∀ r, r ≠ op.path → (fs.get? r ≠ none ∨ ∀ i, r ≠ backupPath op.path i) → (op.run fs).get? r = fs.get? r := by
  obtain ⟨fs1, h1, h2, h3, h4, h5⟩ := prepared fs op.path hw
  rw [run_eq h1]
  refine ⟨wf_put _ _ _ h2, ?_, by rw [get?_put, if_pos rfl], ?_⟩
  · rw [put_free h4]; exact h3.cons _
  · intro r hr hor
    rw [get?_put, if_neg hr, h5 r hr hor]

/-- One round that ends early. -/
theorem crash_props (fs : FS Bytes) (op : WriteOp) (k m : ℕ) (hw : fs.Wf) : (op.crash fs k m).Wf ∧
    (∃ extra : List Bytes, extra.length ≤ 1 ∧ (∀ x ∈ extra, x <+: op.chunks.flatten) ∧ (op.crash fs k m).contents.Perm (extra ++ fs.contents)) ∧
    ((op.crash fs k m).get? op.path = fs.get? op.path ∨ (op.crash fs k m).get? op.path = none ∨
      ∃ x, x <+: op.chunks.flatten ∧ (op.crash fs k m).get? op.path = some x) ∧
    ∀ r, r ≠ op.path → (fs.get? r ≠ none ∨ ∀ i, r ≠ backupPath op.path i) → (op.crash fs k m).get? r = fs.get? r := by
  obtain ⟨fs1, h1, h2, h3, h4, h5⟩ := prepared fs op.path hw
  rcases crash_eq k m h1 with h | h | ⟨x, hx, h⟩ <;> rw [h]
  · exact ⟨hw, ⟨[], by simp, by simp, List.Perm.refl _⟩, .inl rfl, fun _ _ _ => rfl⟩
  · exact ⟨h2, ⟨[], by simp, by simp, h3⟩, .inr (.inl h4), h5⟩
  · refine ⟨wf_put _ _ _ h2, ⟨[x], by simp, by simpa using hx, ?_⟩, .inr (.inr ⟨x, hx, by rw [get?_put, if_pos rfl]⟩), ?_⟩
    · rw [put_free h4]; exact h3.cons _
    · intro r hr hor
      rw [get?_put, if_neg hr, h5 r hr hor]

variable {content : List (Option Bytes) → Except Err Bytes} {chunks : Bytes → List Bytes}

/-- No output is the name of a copy of another output. -/
def Apart (outs : List Path) : Prop := outs.Nodup ∧ ∀ p ∈ outs, ∀ q ∈ outs, ∀ i, p ≠ backupPath q i

theorem Apart.tail {p : Path} {ps : List Path} (h : Apart (p :: ps)) : Apart ps :=
  ⟨(List.nodup_cons.mp h.1).2, fun a ha b hb => h.2 a (by simp [ha]) b (by simp [hb])⟩

/-- What each round writes in these files: `bs` are the contents, all files read exist. -/
def Writes (content : List (Option Bytes) → Except Err Bytes) (fs : FS Bytes) (jobs : List Job) (bs : List Bytes) : Prop :=
  List.Forall₂ (fun j b => content (j.1.map fs.get?) = .ok b ∧ ∀ p ∈ j.1, fs.get? p ≠ none) jobs bs

theorem Writes.congr {fs fs' : FS Bytes} {jobs : List Job} {bs : List Bytes} (h : Writes content fs jobs bs)
    (hk : ∀ j ∈ jobs, ∀ p ∈ j.1, fs.get? p ≠ none → fs'.get? p = fs.get? p) : Writes content fs' jobs bs := by
  unfold Writes at *
  induction h with
  | nil => exact .nil
  | @cons j b js bs h1 h2 ih =>
    refine .cons ⟨?_, ?_⟩ (ih fun j hj => hk j (by simp [hj]))
    · rw [show j.1.map fs'.get? = j.1.map fs.get? from List.map_congr_left fun p hp => hk j (by simp) p hp (h1.2 p hp)]
      exact h1.1
    · intro p hp
      rw [hk j (by simp) p hp (h1.2 p hp)]
      exact h1.2 p hp

/-- A complete run. -/
theorem runJobs_spec (hch : ∀ b, (chunks b).flatten = b) : ∀ (jobs : List Job) (bs : List Bytes) (fs : FS Bytes), fs.Wf → Writes content fs jobs bs →
    (jobs.map Prod.snd).Nodup → jobs.Pairwise (fun a b => a.2 ∉ b.1) →
    (runJobs content chunks fs jobs).Wf ∧ (runJobs content chunks fs jobs).contents.Perm (bs ++ fs.contents) ∧
    List.Forall₂ (fun j b => (runJobs content chunks fs jobs).get? j.2 = some b) jobs bs ∧
    ∀ r, r ∉ jobs.map Prod.snd → (fs.get? r ≠ none ∨ ∀ q ∈ jobs.map Prod.snd, ∀ i, r ≠ backupPath q i) → (runJobs content chunks fs jobs).get? r = fs.get? r
  | [], _, fs, hw, .nil, _, _ => ⟨hw, List.Perm.refl _, .nil, fun _ _ _ => rfl⟩
  | j :: jobs, _, fs, hw, .cons (b := b) (l₂ := bs) h1 h2, hn, hx => by
    obtain ⟨g1, g2, g3, g4⟩ := run_props fs ⟨j.2, chunks b⟩ hw
    simp only [hch] at g2 g3
    rw [List.map_cons, List.nodup_cons] at hn
    rw [List.pairwise_cons] at hx
    have heq : runJobs content chunks fs (j :: jobs) = runJobs content chunks (WriteOp.run fs ⟨j.2, chunks b⟩) jobs := by
      rw [runJobs, h1.1]
    obtain ⟨i1, i2, i3, i4⟩ := runJobs_spec hch jobs bs (WriteOp.run fs ⟨j.2, chunks b⟩) g1
      (Writes.congr h2 fun j' hj' p hp hne => g4 p (fun e => hx.1 j' hj' (by have e' : p = j.2 := e; rw [← e']; exact hp)) (.inl hne)) hn.2 hx.2
    rw [heq]
    refine ⟨i1, ?_, .cons ?_ i3, ?_⟩
    · refine i2.trans ((g2.append_left _).trans ?_)
      exact List.perm_middle
    · rw [i4 j.2 hn.1 (.inl (by rw [g3]; simp)), g3]
    · intro r hr hor
      rw [List.map_cons, List.mem_cons, not_or] at hr
      have hg : (WriteOp.run fs ⟨j.2, chunks b⟩).get? r = fs.get? r := g4 r hr.1 (hor.imp id fun h => h j.2 (by simp))
      rw [i4 r hr.2 (by rw [hg]; exact hor.imp id fun h q hq => h q (by simp [hq])), hg]

/-- A run that is killed in round `n`. -/
theorem killed_spec (hch : ∀ b, (chunks b).flatten = b) : ∀ (jobs : List Job) (bs : List Bytes) (fs : FS Bytes) (n k m : ℕ), fs.Wf → Writes content fs jobs bs →
    Apart (jobs.map Prod.snd) → jobs.Pairwise (fun a b => a.2 ∉ b.1) →
    (killed content chunks fs jobs n k m).Wf ∧
    (∃ extra : List Bytes, extra.length ≤ 1 ∧ (∀ x ∈ extra, ∃ b, bs[n]? = some b ∧ x <+: b) ∧
      (killed content chunks fs jobs n k m).contents.Perm (extra ++ bs.take n ++ fs.contents)) ∧
    (∀ (i : ℕ) (j : Job) (b : Bytes), jobs[i]? = some j → bs[i]? = some b →
      (i < n → (killed content chunks fs jobs n k m).get? j.2 = some b) ∧
      (n < i → (killed content chunks fs jobs n k m).get? j.2 = fs.get? j.2) ∧
      (i = n → ((killed content chunks fs jobs n k m).get? j.2 = fs.get? j.2 ∨ (killed content chunks fs jobs n k m).get? j.2 = none ∨
        ∃ x, x <+: b ∧ (killed content chunks fs jobs n k m).get? j.2 = some x))) ∧
    ∀ r, r ∉ jobs.map Prod.snd → (fs.get? r ≠ none ∨ ∀ q ∈ jobs.map Prod.snd, ∀ i, r ≠ backupPath q i) →
      (killed content chunks fs jobs n k m).get? r = fs.get? r
  | [], _, fs, n, k, m, hw, .nil, _, _ => by
    refine ⟨hw, ⟨[], by simp, by simp, ?_⟩, by simp, fun _ _ _ => rfl⟩
    simp only [killed, List.take_nil, List.append_nil, List.nil_append]
    exact List.Perm.refl _
  | j :: jobs, _, fs, 0, k, m, hw, .cons (b := b) (l₂ := bs) h1 h2, hn, hx => by
    obtain ⟨g1, ⟨extra, g2, g2', g2''⟩, g3, g4⟩ := crash_props fs ⟨j.2, chunks b⟩ k m hw
    simp only [hch] at g2' g3
    have heq : killed content chunks fs (j :: jobs) 0 k m = WriteOp.crash fs ⟨j.2, chunks b⟩ k m := by
      rw [killed, h1.1]
    rw [heq]
    refine ⟨g1, ⟨extra, g2, fun x hx => ⟨b, rfl, g2' x hx⟩, by simpa using g2''⟩, ?_, ?_⟩
    · intro i j' b' hj' hb'
      refine ⟨fun h => absurd h (Nat.not_lt_zero _), fun h => ?_, fun h => ?_⟩
      · obtain ⟨i', rfl⟩ : ∃ i', i = i' + 1 := ⟨i - 1, by omega⟩
        rw [List.getElem?_cons_succ] at hj'
        have hmem := List.mem_of_getElem? hj'
        have hne : j'.2 ≠ j.2 := by
          intro e
          have := (List.nodup_cons.mp hn.1).1
          exact this (List.mem_map.mpr ⟨j', hmem, e⟩)
        exact g4 _ hne (.inr fun i => hn.2 _ (List.mem_map.mpr ⟨j', by simp [hmem], rfl⟩) _ (by simp) i)
      · subst h
        rw [List.getElem?_cons_zero, Option.some.injEq] at hj' hb'
        subst hj' hb'
        exact g3
    · intro r hr hor
      rw [List.map_cons, List.mem_cons, not_or] at hr
      exact g4 r hr.1 (hor.imp id fun h => h j.2 (by simp))
  | j :: jobs, _, fs, n + 1, k, m, hw, .cons (b := b) (l₂ := bs) h1 h2, hn, hx => by
    obtain ⟨g1, g2, g3, g4⟩ := run_props fs ⟨j.2, chunks b⟩ hw
    simp only [hch] at g2 g3
    have hn1 := List.nodup_cons.mp hn.1
    rw [List.pairwise_cons] at hx
    have heq : killed content chunks fs (j :: jobs) (n + 1) k m = killed content chunks (WriteOp.run fs ⟨j.2, chunks b⟩) jobs n k m := by
      rw [killed, h1.1]
    obtain ⟨i1, ⟨extra, e1, e2, e3⟩, i3, i4⟩ := killed_spec hch jobs bs (WriteOp.run fs ⟨j.2, chunks b⟩) n k m g1
      (Writes.congr h2 fun j' hj' p hp hne => g4 p (fun e => hx.1 j' hj' (by have e' : p = j.2 := e; rw [← e']; exact hp)) (.inl hne)) hn.tail hx.2
    rw [heq]
    refine ⟨i1, ⟨extra, e1, by simpa using e2, ?_⟩, ?_, ?_⟩
    · refine e3.trans ?_
      rw [List.take_succ_cons]
      refine (g2.append_left _).trans ?_
      rw [List.append_assoc, List.append_assoc]
      refine List.Perm.append_left _ ?_
      exact List.perm_middle
    · intro i j' b' hj' hb'
      rcases i with _ | i
      · rw [List.getElem?_cons_zero, Option.some.injEq] at hj' hb'
        subst hj' hb'
        refine ⟨fun _ => ?_, fun h => absurd h (by omega), fun h => absurd h (by omega)⟩
        rw [i4 j.2 hn1.1 (.inl (by rw [g3]; simp)), g3]
      · rw [List.getElem?_cons_succ] at hj' hb'
        have hmem := List.mem_of_getElem? hj'
        have hne : j'.2 ≠ j.2 := fun e => hn1.1 (List.mem_map.mpr ⟨j', hmem, e⟩)
        have hg := g4 j'.2 hne (.inr fun i => hn.2 _ (List.mem_map.mpr ⟨j', by simp [hmem], rfl⟩) _ (by simp) i)
        obtain ⟨f1, f2, f3⟩ := i3 i j' b' hj' hb'
        rw [hg] at f2 f3
        exact ⟨fun h => f1 (by omega), fun h => f2 (by omega), fun h => f3 (by omega)⟩
    · intro r hr hor
      rw [List.map_cons, List.mem_cons, not_or] at hr
      have hg : (WriteOp.run fs ⟨j.2, chunks b⟩).get? r = fs.get? r := g4 r hr.1 (hor.imp id fun h => h j.2 (by simp))
      rw [i4 r hr.2 (by rw [hg]; exact hor.imp id fun h q hq => h q (by simp [hq])), hg]

/-! ## The loops of `average` and `convert` -/

theorem mapM_get {fs : FS Bytes} {β : Type} (f : Option Bytes → Except Err β) : ∀ ps : List Path, (ps.map fs.get?).mapM f = ps.mapM fun p => f (fs.get? p)
  | [] => rfl
  | p :: ps => by rw [List.map_cons, List.mapM_cons, List.mapM_cons, mapM_get f ps]

theorem averageContent_eq (read : Bytes → Except Err Map) (write : Record → DInfo → Option Bytes × Except Err Unit)
    (edges : Flow → Except Err (Option ℚ × Option ℚ)) (o : Opts) (fs : FS Bytes) (ps : List Path) {b : Bytes} :
    averageContent read write edges o (ps.map fs.get?) = .ok b ↔
      ∃ d i, (readGroup read fs ps >>= averageGroup edges o) = .ok (d, i) ∧ write d i = (some b, .ok ()) := by
  unfold averageContent readGroup
  rw [mapM_get]
  constructor
  · intro h
    obtain ⟨ms, h1, h⟩ := Simple.bind_eq_ok h
    obtain ⟨r, h2, h⟩ := Simple.bind_eq_ok h
    refine ⟨r.1, r.2, by rw [h1, Gmx.ok_bind, h2], ?_⟩
    rcases hw : write r.1 r.2 with ⟨c, e⟩
    rw [hw] at h
    rcases e with e | u
    · rcases c with _ | c <;> cases h
    · rcases c with _ | c
      · cases h
      · rw [Except.ok.inj h]
  · rintro ⟨d, i, h1, h2⟩
    obtain ⟨ms, h3, h4⟩ := Simple.bind_eq_ok h1
    rw [h3, Gmx.ok_bind, h4, Gmx.ok_bind]
    simp only [h2]

/-- The loop of `average` is the run of its rounds. -/
theorem averageLoop_jobs (read : Bytes → Except Err Map) (write : Record → DInfo → Option Bytes × Except Err Unit)
    (edges : Flow → Except Err (Option ℚ × Option ℚ)) (o : Opts) (hch : ∀ b, (chunks b).flatten = b) : ∀ (jobs : List Job) (bs : List Bytes) (fs : FS Bytes),
    fs.Wf → Writes (averageContent read write edges o) fs jobs bs → jobs.Pairwise (fun a b => a.2 ∉ b.1) →
    averageLoop read write edges o fs jobs =
      (runJobs (averageContent read write edges o) chunks fs jobs, if o.quiet then .error .unboundLocalError else .ok ())
  | [], _, fs, _, .nil, _ => by rw [averageLoop, runJobs]
  | (ps, out) :: jobs, _, fs, hw, .cons (b := b) (l₂ := bs) h1 h2, hx => by
    rw [List.pairwise_cons] at hx
    obtain ⟨d, i, h3, h4⟩ := (averageContent_eq read write edges o fs ps).mp h1.1
    obtain ⟨fs1, hp, heq, -, -⟩ := averageLoop_cons (out := out) (rest := jobs) h3 h4
    have hr : WriteOp.run fs ⟨out, chunks b⟩ = fs1.put out b := by
      rw [run_eq (op := ⟨out, chunks b⟩) hp, hch]
    obtain ⟨g1, -, -, g4⟩ := run_props fs ⟨out, chunks b⟩ hw
    have := averageLoop_jobs read write edges o hch jobs bs (WriteOp.run fs ⟨out, chunks b⟩) g1
      (Writes.congr h2 fun j' hj' p hp hne => g4 p (fun e => hx.1 j' hj' (by have e' : p = out := e; rw [← e']; exact hp)) (.inl hne)) hx.2
    rw [heq, ← hr, this, runJobs, h1.1]

/-- The loop of `convert` is the run of its rounds. -/
theorem convertBytes_jobs (F : F32) (ftype : String) (given : Bool) (hch : ∀ b, (chunks b).flatten = b) : ∀ (pairs : List (Path × Path)) (bs : List Bytes) (fs : FS Bytes),
    fs.Wf → Writes (convertContent F ftype given) fs (pairs.map fun io => ([io.1], io.2)) bs → pairs.Pairwise (fun a b => a.2 ≠ b.1) →
    convertBytes F ftype given fs pairs = (runJobs (convertContent F ftype given) chunks fs (pairs.map fun io => ([io.1], io.2)), .ok ())
  | [], _, fs, _, .nil, _ => by rw [convertBytes]; rfl
  | (pin, out) :: pairs, _, fs, hw, .cons (b := b) (l₂ := bs) h1 h2, hx => by
    rw [List.pairwise_cons] at hx
    obtain ⟨fs1, hp, -, -, -, -⟩ := prepared fs out hw
    have hr : WriteOp.run fs ⟨out, chunks b⟩ = fs1.put out b := by
      rw [run_eq (op := ⟨out, chunks b⟩) hp, hch]
    obtain ⟨g1, -, -, g4⟩ := run_props fs ⟨out, chunks b⟩ hw
    have hc := h1.1
    have ih := convertBytes_jobs F ftype given hch pairs bs (WriteOp.run fs ⟨out, chunks b⟩) g1
      (Writes.congr h2 fun j' hj' p hp hne => g4 p (by
        obtain ⟨io, hio, rfl⟩ := List.mem_map.mp hj'
        rw [List.mem_singleton.mp hp]
        exact fun e => hx.1 io hio e.symm) (.inl hne)) hx.2
    rw [convertBytes, List.map_cons, runJobs]
    simp only [h1.1]
    obtain ⟨c, hcc⟩ := Option.ne_none_iff_exists'.mp (h1.2 pin (by simp))
    simp only [List.map_cons, List.map_nil, hcc, convertContent] at hc
    obtain ⟨m, hm, hc⟩ := Simple.bind_eq_ok hc
    have hrp : readPath F fs pin = .ok m := by rw [readPath, hcc]; exact hm
    simp only [hrp]
    by_cases hf : ftype ∉ ["default", "gmx", "simple", "simple_plain"]
    · rw [if_pos hf] at hc; cases hc
    · rw [if_neg hf] at hc ⊢
      simp only [hp, hc]
      rw [← hr, ih]

end Strata.Killed
