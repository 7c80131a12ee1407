import Verif.Proofs.Files
/-! Helper lemmas on histories of writes, crash points and `convert`. -/
namespace Strata.Files

/-- Every path occurs once. -/
def FS.Wf {γ : Type} (fs : FS γ) : Prop := (fs.map Prod.fst).Nodup

/-- All contents present in the file system. -/
def FS.contents {γ : Type} (fs : FS γ) : List γ := fs.map Prod.snd

variable {γ : Type}

theorem remove_of_free (fs : FS γ) (p : Path) (h : fs.get? p = none) : fs.remove p = fs := by
  have h' : p ∉ fs.map Prod.fst := by
    rw [← exists?_iff_mem, exists?_iff]; simp [h]
  unfold FS.remove
  rw [List.filter_eq_self]
  intro e he
  simp only [ne_eq, decide_eq_true_eq]
  rintro rfl
  exact h' (List.mem_map_of_mem he)

theorem wf_remove (fs : FS γ) (p : Path) (h : fs.Wf) : (fs.remove p).Wf := by
  unfold FS.Wf FS.remove at *
  exact h.sublist (List.filter_sublist.map _)

theorem wf_put (fs : FS γ) (p : Path) (c : γ) (h : fs.Wf) : (fs.put p c).Wf := by
  have h1 := wf_remove fs p h
  unfold FS.Wf FS.put at *
  rw [List.map_cons, List.nodup_cons]
  refine ⟨?_, h1⟩
  simp [FS.remove]

theorem perm_remove (fs : FS γ) (p : Path) (c : γ) (h : fs.Wf) (hg : fs.get? p = some c) :
    ((p, c) :: fs.remove p).Perm fs := by
  induction fs with
  | nil => simp [FS.get?] at hg
  | cons e fs ih =>
    have hnd : e.1 ∉ fs.map Prod.fst ∧ (fs.map Prod.fst).Nodup := by
      have h' : ((e :: fs).map Prod.fst).Nodup := h
      rwa [List.map_cons, List.nodup_cons] at h'
    rw [get?_cons] at hg
    by_cases he : e.1 = p
    · rw [if_pos he] at hg
      have hc : e.2 = c := by simpa using hg
      have hfree : FS.get? fs p = none := by
        by_contra hne
        have := (exists?_iff fs p).mpr hne
        rw [exists?_iff_mem] at this
        rw [he] at hnd
        exact hnd.1 this
      have : FS.remove (e :: fs) p = FS.remove fs p := by
        unfold FS.remove; rw [List.filter_cons_of_neg (by simp [he])]
      rw [this, remove_of_free fs p hfree, ← hc, ← he]
    · rw [if_neg he] at hg
      have hr : FS.remove (e :: fs) p = e :: FS.remove fs p := by
        unfold FS.remove; rw [List.filter_cons_of_pos (by simp [he])]
      rw [hr]
      exact (List.Perm.swap _ _ _).trans ((ih hnd.2 hg).cons e)

theorem perm_contents_remove (fs : FS γ) (p : Path) (c : γ) (h : fs.Wf) (hg : fs.get? p = some c) :
    (c :: (fs.remove p).contents).Perm fs.contents := by
  have := (perm_remove fs p c h hg).map Prod.snd
  simpa [FS.contents] using this

theorem put_contents (fs : FS γ) (p : Path) (c : γ) :
    (fs.put p c).contents = c :: (fs.remove p).contents := by
  simp [FS.put, FS.contents]

theorem remove_put (fs : FS γ) (p : Path) (c : γ) : (fs.put p c).remove p = fs.remove p := by
  unfold FS.put FS.remove
  rw [List.filter_cons_of_neg (by simp), List.filter_filter]
  simp

/-- Effect of the preparatory rename, in all observable respects. -/
theorem rename_spec (fs : FS γ) (p q : Path) (c : γ) (h : fs.Wf) (hpq : q ≠ p)
    (hg : fs.get? p = some c) (hq : fs.get? q = none) :
    (fs.rename p q).Wf ∧ (fs.rename p q).contents.Perm fs.contents ∧
    ∀ r, (fs.rename p q).get? r = if r = q then some c else if r = p then none else fs.get? r := by
  have hr : fs.rename p q = (fs.remove p).put q c := by simp [FS.rename, hg]
  have hfree : (fs.remove p).get? q = none := by rw [get?_remove, if_neg hpq, hq]
  refine ⟨?_, ?_, ?_⟩
  · rw [hr]; exact wf_put _ _ _ (wf_remove _ _ h)
  · rw [hr, put_contents, remove_of_free _ _ hfree]
    exact perm_contents_remove fs p c h hg
  · intro r; rw [hr, get?_put, get?_remove]

/-- State while the target is being written. -/
def Writing (base fs : FS (List UInt8)) (p : Path) (x : List UInt8) : Prop :=
  fs.Wf ∧ fs.get? p = some x ∧ fs.remove p = base ∧ (∀ r, r ≠ p → fs.get? r = base.get? r)

theorem writing_contents {base fs : FS (List UInt8)} {p : Path} {x : List UInt8}
    (h : Writing base fs p x) : fs.contents.Perm (x :: base.contents) := by
  have := perm_contents_remove fs p x h.1 h.2.1
  rw [h.2.2.1] at this
  exact this.symm

theorem writing_append {base fs : FS (List UInt8)} {p : Path} {x : List UInt8} (bs : List UInt8)
    (h : Writing base fs p x) : Writing base (Step.run fs (.append p bs)) p (x ++ bs) := by
  obtain ⟨h1, h2, h3, h4⟩ := h
  have : Step.run fs (.append p bs) = fs.put p (x ++ bs) := by simp [Step.run, h2]
  rw [this]
  refine ⟨wf_put _ _ _ h1, by simp [get?_put], by rw [remove_put, h3], ?_⟩
  intro r hr
  rw [get?_put, if_neg hr, h4 r hr]

theorem writing_appends {base fs : FS (List UInt8)} {p : Path} {x : List UInt8}
    (chunks : List (List UInt8)) (h : Writing base fs p x) :
    Writing base ((chunks.map (Step.append p)).foldl Step.run fs) p (x ++ chunks.flatten) := by
  induction chunks generalizing fs x with
  | nil => simpa using h
  | cons c cs ih =>
    have := ih (writing_append c h)
    simpa [List.append_assoc] using this

/-- What `prepare_path` achieves, whether or not a backup is needed. -/
theorem prepare_run (fs : FS (List UInt8)) (op : WriteOp) (h : fs.Wf) :
    ∃ pre : List Step, pre.length ≤ 1 ∧
      op.steps fs = pre ++ [.create op.path] ++ op.chunks.map (.append op.path) ∧
      (∀ k, ((pre.take k).foldl Step.run fs).contents.Perm fs.contents ∧
        ((pre.take k).foldl Step.run fs).Wf) ∧
      (pre.foldl Step.run fs).get? op.path = none ∧
      (∀ (k : ℕ) (s : Step), pre[k]? = some s → ∀ p bs, s ≠ Step.append p bs) := by
  rcases backupTarget_spec fs op.path with ⟨h1, h2⟩ | ⟨h1, i, hi, _, _, hfree, h2⟩
  · refine ⟨[], by simp, by simp [WriteOp.steps, h2], by simp [h], by simpa using h1, by simp⟩
  · obtain ⟨c, hc⟩ := Option.ne_none_iff_exists'.mp h1
    obtain ⟨hwf, hperm, hget⟩ := rename_spec fs op.path (backupPath op.path i) c h
      (backupPath_ne _ _) hc hfree
    refine ⟨[.rename op.path (backupPath op.path i)], by simp, by simp [WriteOp.steps, h2], ?_, ?_, ?_⟩
    · intro k
      rcases k with _ | k
      · simp [h]
      · simpa [Step.run] using ⟨hperm, hwf⟩
    · simp only [List.foldl_cons, List.foldl_nil, Step.run]
      rw [hget, if_neg (backupPath_ne _ _).symm, if_pos rfl]
    · intro k s hs p bs
      rcases k with _ | k
      · simp at hs; subst hs; simp
      · simp at hs

theorem writing_create (fs : FS (List UInt8)) (p : Path) (h : fs.Wf) (hf : fs.get? p = none) :
    Writing fs (Step.run fs (.create p)) p [] := by
  refine ⟨wf_put _ _ _ h, by simp [Step.run, get?_put], ?_, ?_⟩
  · rw [Step.run, remove_put, remove_of_free _ _ hf]
  · intro r hr; rw [Step.run, get?_put, if_neg hr]

theorem run_spec (fs : FS (List UInt8)) (op : WriteOp) (h : fs.Wf) :
    (op.run fs).Wf ∧ (op.run fs).contents.Perm (op.chunks.flatten :: fs.contents) ∧
    (op.run fs).get? op.path = some op.chunks.flatten := by
  obtain ⟨pre, _, hst, hpre, hfree, _⟩ := prepare_run fs op h
  have hp := hpre pre.length
  rw [List.take_length] at hp
  have hw := writing_appends op.chunks (writing_create _ op.path hp.2 hfree)
  have hrun : op.run fs = (op.chunks.map (Step.append op.path)).foldl Step.run
      (Step.run (pre.foldl Step.run fs) (.create op.path)) := by
    simp [WriteOp.run, hst, List.foldl_append]
  rw [hrun]
  refine ⟨hw.1, ?_, by simpa using hw.2.1⟩
  have := writing_contents hw
  simp only [List.nil_append] at this
  exact this.trans (hp.1.cons _)

theorem crash_spec (fs : FS (List UInt8)) (op : WriteOp) (k m : ℕ) (h : fs.Wf) :
    ∃ extra : List (List UInt8), extra.length ≤ 1 ∧ (∀ x ∈ extra, x <+: op.chunks.flatten) ∧
      (op.crash fs k m).contents.Perm (extra ++ fs.contents) := by
  obtain ⟨pre, hl, hst, hpre, hfree, hno⟩ := prepare_run fs op h
  unfold WriteOp.crash
  simp only [hst]
  have hp := hpre pre.length
  rw [List.take_length] at hp
  by_cases hk : k ≤ pre.length
  · -- crash during or directly after the preparation
    have htake : (pre ++ [Step.create op.path] ++ op.chunks.map (Step.append op.path)).take k =
        pre.take k := by
      rw [List.append_assoc, List.take_append_of_le_length hk]
    refine ⟨[], by simp, by simp, ?_⟩
    simp only [List.nil_append]
    have hdone := (hpre k).1
    rw [htake]
    have hget : (pre ++ [Step.create op.path] ++ op.chunks.map (Step.append op.path))[k]? =
        if k < pre.length then pre[k]? else some (.create op.path) := by
      rw [List.append_assoc, List.getElem?_append]
      split
      · rfl
      · have : k - pre.length = 0 := by omega
        simp [this]
    rw [hget]
    split
    · rename_i s p bs heq
      split at heq
      · exact absurd rfl (hno k _ heq p bs)
      · simp at heq
    · exact hdone
  · -- the target exists
    obtain ⟨j, rfl⟩ : ∃ j, k = pre.length + 1 + j := ⟨k - pre.length - 1, by omega⟩
    have hlen : (pre ++ [Step.create op.path]).length = pre.length + 1 := by simp
    have htake : (pre ++ [Step.create op.path] ++ op.chunks.map (Step.append op.path)).take
        (pre.length + 1 + j) = pre ++ [Step.create op.path] ++ (op.chunks.take j).map (Step.append op.path) := by
      rw [← hlen, List.take_length_add_append, List.map_take]
    have hget : (pre ++ [Step.create op.path] ++ op.chunks.map (Step.append op.path))[pre.length + 1 + j]? =
        op.chunks[j]?.map (Step.append op.path) := by
      rw [List.getElem?_append_right (by simp)]
      simp
    have hw := writing_appends (op.chunks.take j) (writing_create _ op.path hp.2 hfree)
    simp only [List.nil_append] at hw
    have hpre_take : (op.chunks.take j).flatten <+: op.chunks.flatten := by
      conv_rhs => rw [← List.take_append_drop j op.chunks, List.flatten_append]
      exact List.prefix_append _ _
    rw [htake, hget, List.foldl_append, List.foldl_append, List.foldl_cons, List.foldl_nil]
    rcases hj : op.chunks[j]? with _ | bs
    · simp only [Option.map_none]
      refine ⟨[(op.chunks.take j).flatten], by simp, by simpa using hpre_take, ?_⟩
      exact (writing_contents hw).trans (hp.1.cons _)
    · simp only [Option.map_some]
      refine ⟨[(op.chunks.take j).flatten ++ bs.take m], by simp, ?_, ?_⟩
      · intro x hx
        simp only [List.mem_singleton] at hx
        subst hx
        have hjl : j < op.chunks.length := by
          by_contra hc
          rw [List.getElem?_eq_none (by omega)] at hj
          simp at hj
        have hbs : op.chunks[j] = bs := by
          rw [List.getElem?_eq_getElem hjl] at hj; simpa using hj
        have hsplit : op.chunks.flatten = (op.chunks.take j).flatten ++ (bs ++ (op.chunks.drop (j+1)).flatten) := by
          conv_lhs => rw [← List.take_append_drop j op.chunks, List.flatten_append]
          rw [List.drop_eq_getElem_cons hjl, List.flatten_cons, hbs]
        rw [hsplit, List.prefix_append_right_inj]
        exact (List.take_prefix _ _).trans (List.prefix_append _ _)
      · exact (writing_contents (writing_append (bs.take m) hw)).trans (hp.1.cons _)

/-! convert -/

theorem preparePath_spec (fs : FS γ) (p : Path) :
    ∃ fs', preparePath fs p = .ok fs' ∧ fs'.get? p = none ∧
      (∀ r, r ≠ p → fs.get? r ≠ none → fs'.get? r = fs.get? r) := by
  rcases backupTarget_spec fs p with ⟨h1, h2⟩ | ⟨h1, i, hi, _, _, hfree, h2⟩
  · exact ⟨fs, by simp [preparePath, h2], h1, fun _ _ _ => rfl⟩
  · obtain ⟨c, hc⟩ := Option.ne_none_iff_exists'.mp h1
    have hr : fs.rename p (backupPath p i) = (fs.remove p).put (backupPath p i) c := by
      simp [FS.rename, hc]
    refine ⟨_, by simp [preparePath, h2]; rfl, ?_, ?_⟩
    · rw [hr, get?_put, get?_remove, if_neg (backupPath_ne _ _).symm, if_pos rfl]
    · intro r hr1 hr2
      rw [hr, get?_put, get?_remove, if_neg hr1]
      rw [if_neg]
      rintro rfl
      exact hr2 hfree

theorem convertLoop_keeps {δ : Type} (dec : γ → Except Err δ) (enc : δ → γ)
    (pairs : List (Path × Path)) (fs fs' : FS γ) (r : Path)
    (hr : fs.get? r ≠ none) (hout : ∀ io ∈ pairs, io.2 ≠ r)
    (h : convertLoop dec enc fs pairs = .ok fs') : fs'.get? r = fs.get? r := by
  induction pairs generalizing fs with
  | nil => simp [convertLoop] at h; rw [h]
  | cons io rest ih =>
    obtain ⟨pin, pout⟩ := io
    rw [convertLoop] at h
    rcases hg : fs.get? pin with _ | c
    · simp [hg] at h
    · simp only [hg] at h
      rcases hd : dec c with e | d
      · simp [hd] at h
      · simp only [hd] at h
        obtain ⟨fs1, hp, hfree, hkeep⟩ := preparePath_spec fs pout
        simp only [hp] at h
        have hne : r ≠ pout := fun e => hout (pin, pout) (by simp) e.symm
        have h1 : (fs1.put pout (enc d)).get? r = fs.get? r := by
          rw [get?_put, if_neg hne, hkeep r hne hr]
        rw [← h1]
        exact ih _ (by rw [h1]; exact hr) (fun io hio => hout io (by simp [hio])) h

theorem convertLoop_spec {δ : Type} (dec : γ → Except Err δ) (enc : δ → γ)
    (pairs : List (Path × Path)) (fs : FS γ)
    (hread : ∀ io ∈ pairs, ∃ c d, fs.get? io.1 = some c ∧ dec c = .ok d)
    (hout : (pairs.map Prod.snd).Nodup)
    (hcross : pairs.Pairwise (fun a b => a.2 ≠ b.1)) :
    ∃ fs', convertLoop dec enc fs pairs = .ok fs' ∧
      ∀ io ∈ pairs, ∃ c d, fs.get? io.1 = some c ∧ dec c = .ok d ∧
        fs'.get? io.2 = some (enc d) := by
  induction pairs generalizing fs with
  | nil => exact ⟨fs, rfl, by simp⟩
  | cons io rest ih =>
    obtain ⟨pin, pout⟩ := io
    obtain ⟨c, d, hc, hd⟩ := hread (pin, pout) (by simp)
    obtain ⟨fs1, hp, hfree, hkeep⟩ := preparePath_spec fs pout
    simp only [List.map_cons, List.nodup_cons] at hout
    rw [List.pairwise_cons] at hcross
    have hsame : ∀ io ∈ rest, (fs1.put pout (enc d)).get? io.1 = fs.get? io.1 := by
      intro io hio
      have hne : io.1 ≠ pout := fun e => hcross.1 io hio e.symm
      obtain ⟨c', d', hc', _⟩ := hread io (by simp [hio])
      rw [get?_put, if_neg hne, hkeep _ hne (by simp [hc'])]
    obtain ⟨fs', hfs', hall⟩ := ih (fs1.put pout (enc d))
      (fun io hio => by rw [hsame io hio]; exact hread io (by simp [hio])) hout.2 hcross.2
    have hrun : convertLoop dec enc fs ((pin, pout) :: rest) = .ok fs' := by
      rw [convertLoop]; simp only [hc, hd, hp, hfs']
    refine ⟨fs', hrun, ?_⟩
    intro io hio
    rcases List.mem_cons.mp hio with rfl | hio
    · refine ⟨c, d, hc, hd, ?_⟩
      have hput : (fs1.put pout (enc d)).get? pout = some (enc d) := by simp [get?_put]
      rw [convertLoop_keeps dec enc rest _ fs' pout (by simp [hput]) ?_ hfs', hput]
      intro io hio e
      exact hout.1 (by rw [← e]; exact List.mem_map_of_mem hio)
    · obtain ⟨c', d', h1, h2, h3⟩ := hall io hio
      exact ⟨c', d', by rw [← hsame io hio]; exact h1, h2, h3⟩

/-! split -/

theorem splitPath_append (base t : Text) (h : '/' ∉ t) :
    splitPath (base ++ t) = ((splitPath base).1, (splitPath base).2 ++ t) := by
  have h1 : ∀ a ∈ t.reverse, decide (a ≠ '/') = true := by
    intro a ha; simp only [decide_eq_true_eq]; rintro rfl; exact h (List.mem_reverse.mp ha)
  have h2 : (t.reverse ++ base.reverse).takeWhile (· ≠ '/') = t.reverse ++ base.reverse.takeWhile (· ≠ '/') := by
    rw [List.takeWhile_append_of_pos h1]
  have h3 : (t.reverse ++ base.reverse).dropWhile (· ≠ '/') = base.reverse.dropWhile (· ≠ '/') := by
    rw [List.dropWhile_append_of_pos h1]
  unfold splitPath
  simp only [List.reverse_append, h2, h3, List.reverse_reverse]

end Strata.Files
