import Verif.Props.CommandSeries
import Verif.Props.ContactLinePipeline
import Verif.Spec.ContactLineFiles
import Verif.Model.ContactLineFiles
/-!
# C143: the contact-line commands on files
-/
namespace Strata.ContactLineFiles
open Strata Strata.Files Strata.Spec Strata.ContactLine Strata.SpreadingFiles Strata.SpreadingText Strata.InterfaceText Strata.SavedRuns Strata.Commands Strata.CommandRuns Strata.CommandSeries Strata.Bytes

variable {γ : Type}

/-- The loop when no complete group lets it go on: the files of the first group are read in order, and then its fate is that of the whole run. -/
theorem edgeLoop_first {α : Type} (file : FS γ → Text → Except Err α) (consume : FS γ → ℕ → List α → FS γ × Except Err Unit) (m : ℕ) (rolling : Bool)
    (hc : ∀ fs i g, (consume fs i g).2 ≠ .ok ()) (fs : FS γ) (i : ℕ) (ns : List Text) : ∀ acc : List α, acc.length < m →
      edgeLoop file consume m rolling fs i acc ns =
        match (ns.take (m - acc.length)).mapM (file fs) with
        | .error e => (fs, .error e)
        | .ok as => if ns.length < m - acc.length then (fs, .ok ()) else consume fs i (acc ++ as) := by
  induction ns with
  | nil =>
    intro acc ha
    rw [List.take_nil]
    show (fs, .ok ()) = if 0 < m - acc.length then (fs, .ok ()) else consume fs i (acc ++ [])
    rw [if_pos (by omega)]
  | cons n ns ih =>
    intro acc ha
    obtain ⟨k, hk⟩ : ∃ k, m - acc.length = k + 1 := ⟨m - acc.length - 1, by omega⟩
    rw [edgeLoop, hk, List.take_succ_cons, List.mapM_cons]
    cases hf : file fs n with
    | error e => rfl
    | ok a =>
      simp only
      rw [Commands.ok_bind]
      by_cases hm : ((acc ++ [a]).length : ℤ) = m
      · have hk0 : k = 0 := by
          have : acc.length + 1 = m := by
            have h1 : (acc ++ [a]).length = acc.length + 1 := by simp
            omega
          omega
        subst hk0
        rw [if_pos hm, List.take_zero]
        show _ = if (n :: ns).length < 0 + 1 then (fs, .ok ()) else consume fs i (acc ++ [a])
        rw [if_neg (show ¬ ((n :: ns).length < 0 + 1) by rw [List.length_cons]; omega)]
        have := hc fs i (acc ++ [a])
        generalize consume fs i (acc ++ [a]) = r at this
        obtain ⟨r1, r2⟩ := r
        cases r2 with
        | error e => rfl
        | ok u => exact absurd rfl this
      · have hlen : (acc ++ [a]).length = acc.length + 1 := by simp
        have hlt : (acc ++ [a]).length < m := by omega
        rw [if_neg hm, ih _ hlt, hlen, show m - (acc.length + 1) = k by omega]
        cases (ns.take k).mapM (file fs) with
        | error e => rfl
        | ok as =>
          show (if ns.length < k then _ else _) = (if (n :: ns).length < k + 1 then _ else _)
          have h1 : (n :: ns).length < k + 1 ↔ ns.length < k := by simp
          by_cases h2 : ns.length < k
          · rw [if_pos h2, if_pos (h1.mpr h2)]
          · rw [if_neg h2, if_neg (fun h => h2 (h1.mp h)), List.append_assoc]; rfl

/-- What becomes of a group: an error, with the files as they were or the name of the output moved away. -/
theorem extractGroup_spec (huge : ℚ) (recenter fuse : Bool) (output ext : Text) (first : ℤ) (fs : FS γ) (i : ℕ) (g : List Edges) :
    (∃ e, extractGroup huge recenter fuse output ext first fs i g = (fs, .error e) ∧ groupMap huge recenter fuse g = .error e) ∨
    ∃ f fs', groupMap huge recenter fuse g = .ok f ∧ extractGroup huge recenter fuse output ext first fs i g = (fs', .error .typeError) ∧
      MovedAway fs fs' (splitPath (fileName output ext (first + i))) := by
  unfold extractGroup
  cases groupMap huge recenter fuse g with
  | error e => exact .inl ⟨e, rfl, rfl⟩
  | ok f =>
    obtain ⟨fs', h1, h2, h3⟩ := C06_prepare_path_safe fs (splitPath (fileName output ext (first + i)))
    refine .inr ⟨f, fs', rfl, by simp only [h1]; rfl, h2, ?_⟩
    rcases h3 with h | ⟨c, k, a1, a2, -, -, a3, a4, a5⟩
    · exact .inl h
    · exact .inr ⟨c, k, a1, a2, a3, a4, a5⟩

/-- Moving a file away loses nothing and adds nothing. -/
theorem MovedAway.same {fs fs' : FS γ} {p : Path} (h : MovedAway fs fs' p) :
    (∀ q c, fs.get? q = some c → ∃ q', fs'.get? q' = some c) ∧ ∀ q c, fs'.get? q = some c → ∃ q', fs.get? q' = some c := by
  obtain ⟨h0, ⟨h1, rfl⟩ | ⟨c, k, h1, -, h3, h4, h5⟩⟩ := h
  · exact ⟨fun q c hq => ⟨q, hq⟩, fun q c hq => ⟨q, hq⟩⟩
  · constructor
    · intro q d hq
      by_cases hp : q = p
      · subst hp; rw [h1] at hq; exact ⟨_, h4.trans hq⟩
      · by_cases hb : q = backupPath p k
        · subst hb; rw [h3] at hq; cases hq
        · exact ⟨q, (h5 q hp hb).trans hq⟩
    · intro q d hq
      by_cases hp : q = p
      · subst hp; rw [h0] at hq; cases hq
      · by_cases hb : q = backupPath p k
        · subst hb; rw [h4] at hq; exact ⟨p, h1.trans hq⟩
        · exact ⟨q, (h5 q hp hb).symm.trans hq⟩

/-- **C143, collecting (partial: what is left is that the run fails, with nothing lost).** A run that succeeds found fewer files than are averaged over and changed nothing.  A run that fails has at most
moved the file with the name of the first output to a free backup name.  In no case is anything written, and nothing is lost. -/
theorem C143_collect_partial (read : γ → Except Err (Flow.Record × Flow.InfoDict)) (huge : ℚ) (o : EdgeOpts) (m : ℕ) (hm : 0 < m) (rolling recenter fuse : Bool) (fs : FS γ) (dir : Dir)
    (base output ext : Text) (begin_ : ℤ) (end_ : Option ℤ) (fs' : FS γ) (outcome : Except Err Unit)
    (hr : extract read huge o m rolling recenter fuse fs dir base output ext begin_ end_ = (fs', outcome)) :
    (outcome = .ok () → fs' = fs ∧ (yieldSingles dir base ext begin_ end_).length < m) ∧
    (∀ e, outcome = .error e → fs' = fs ∨ (e = .typeError ∧ MovedAway fs fs' (splitPath (fileName output ext begin_)))) ∧
    (∀ q c, fs.get? q = some c → ∃ q', fs'.get? q' = some c) ∧ ∀ q c, fs'.get? q = some c → ∃ q', fs.get? q' = some c := by
  have hc : ∀ (fs : FS γ) i g, (extractGroup huge recenter fuse output ext begin_ fs i g).2 ≠ .ok () := by
    intro fs i g
    rcases extractGroup_spec huge recenter fuse output ext begin_ fs i g with ⟨e, h, -⟩ | ⟨f, fs', -, h, -⟩ <;> rw [h] <;> simp
  unfold extract at hr
  rw [edgeLoop_first _ _ m rolling hc fs 0 _ [] hm] at hr
  have plain : fs' = fs → (∀ q c, fs.get? q = some c → ∃ q', fs'.get? q' = some c) ∧ ∀ q c, fs'.get? q = some c → ∃ q', fs.get? q' = some c := by
    rintro rfl; exact ⟨fun q c h => ⟨q, h⟩, fun q c h => ⟨q, h⟩⟩
  cases hf : (List.take (m - ([] : List Edges).length) (yieldSingles dir base ext begin_ end_)).mapM (edgesOfFile read o fs) with
  | error e =>
    rw [hf] at hr
    obtain ⟨rfl, rfl⟩ := Prod.mk.inj hr
    exact ⟨(fun h => by cases h), fun e _ => .inl rfl, plain rfl⟩
  | ok as =>
    rw [hf] at hr
    simp only [List.length_nil, Nat.sub_zero, List.nil_append] at hr
    by_cases hl : (yieldSingles dir base ext begin_ end_).length < m
    · rw [if_pos hl] at hr
      obtain ⟨rfl, rfl⟩ := Prod.mk.inj hr
      exact ⟨fun _ => ⟨rfl, hl⟩, (fun e h => by cases h), plain rfl⟩
    · rw [if_neg hl] at hr
      rcases extractGroup_spec huge recenter fuse output ext begin_ fs 0 as with ⟨e, h, -⟩ | ⟨f, fs1, -, h, hmv⟩
      · rw [h] at hr
        obtain ⟨rfl, rfl⟩ := Prod.mk.inj hr
        exact ⟨(fun h => by cases h), fun e _ => .inl rfl, plain rfl⟩
      · rw [h] at hr
        obtain ⟨rfl, rfl⟩ := Prod.mk.inj hr
        rw [Nat.cast_zero, add_zero] at hmv
        exact ⟨(fun h => by cases h), fun e he => .inr ⟨(Except.error.inj he).symm, hmv⟩, MovedAway.same hmv⟩

/-- **C143, collecting, counterexample.** Whenever the edges of the first group can be extracted and averaged, the run fails with a `TypeError`, and there is no file with the name of the first output. -/
theorem C143_collect_counterexample (read : γ → Except Err (Flow.Record × Flow.InfoDict)) (huge : ℚ) (o : EdgeOpts) (m : ℕ) (hm : 0 < m) (rolling recenter fuse : Bool) (fs : FS γ) (dir : Dir)
    (base output ext : Text) (begin_ : ℤ) (end_ : Option ℤ) (hl : m ≤ (yieldSingles dir base ext begin_ end_).length) (g : List Edges)
    (hg : ((yieldSingles dir base ext begin_ end_).take m).mapM (edgesOfFile read o fs) = .ok g) (f : Flow.Flow)
    (hf : groupMap huge recenter fuse g = .ok f) :
    ∃ fs', extract read huge o m rolling recenter fuse fs dir base output ext begin_ end_ = (fs', .error .typeError) ∧ fs'.get? (splitPath (fileName output ext begin_)) = none ∧
      MovedAway fs fs' (splitPath (fileName output ext begin_)) := by
  have hc : ∀ (fs : FS γ) i g, (extractGroup huge recenter fuse output ext begin_ fs i g).2 ≠ .ok () := by
    intro fs i g
    rcases extractGroup_spec huge recenter fuse output ext begin_ fs i g with ⟨e, h, -⟩ | ⟨f, fs', -, h, -⟩ <;> rw [h] <;> simp
  unfold extract
  rw [edgeLoop_first _ _ m rolling hc fs 0 _ [] hm]
  simp only [List.length_nil, Nat.sub_zero, List.nil_append]
  rw [hg]
  simp only
  rw [if_neg (by omega)]
  rcases extractGroup_spec huge recenter fuse output ext begin_ fs 0 g with ⟨e, h, h'⟩ | ⟨f, fs1, -, h, hmv⟩
  · rw [hf] at h'; cases h'
  · rw [Nat.cast_zero, add_zero] at hmv
    exact ⟨fs1, h, hmv.1, hmv⟩

/-- Without its first file a series is empty. -/
theorem yieldSingles_none (dir : Dir) (base ext : Text) (b : ℤ) (e : Option ℤ) (h : fileName base ext b ∉ dir) : yieldSingles dir base ext b e = [] := by
  obtain ⟨k, -, h1, h2, -⟩ := yieldSingles_spec dir base ext b e
  rw [h1]
  cases k with
  | zero => rfl
  | succ k =>
    have := (h2 0 (by omega)).2
    rw [Nat.cast_zero, add_zero] at this
    exact absurd this h

/-- **C143, collecting in place, counterexample.** With the output named like the input, the first input file is gone afterwards: under its name there is nothing, and a search of the directory finds no
file of the series at all. -/
theorem C143_in_place_counterexample (read : γ → Except Err (Flow.Record × Flow.InfoDict)) (huge : ℚ) (o : EdgeOpts) (m : ℕ) (hm : 0 < m) (rolling recenter fuse : Bool) (fs : FS γ) (dir : Dir)
    (base ext : Text) (begin_ : ℤ) (end_ : Option ℤ) (hl : m ≤ (yieldSingles dir base ext begin_ end_).length) (g : List Edges)
    (hg : ((yieldSingles dir base ext begin_ end_).take m).mapM (edgesOfFile read o fs) = .ok g) (f : Flow.Flow)
    (hf : groupMap huge recenter fuse g = .ok f) :
    ∃ fs', extract read huge o m rolling recenter fuse fs dir base base ext begin_ end_ = (fs', .error .typeError) ∧ fs'.get? (splitPath (fileName base ext begin_)) = none ∧
      ∀ dir' : Dir, (∀ n, fileName base ext n ∈ dir' ↔ fs'.get? (splitPath (fileName base ext n)) ≠ none) → yieldSingles dir' base ext begin_ end_ = [] := by
  obtain ⟨fs', h1, h2, -⟩ := C143_collect_counterexample read huge o m hm rolling recenter fuse fs dir base base ext begin_ end_ hl g hg f hf
  refine ⟨fs', h1, h2, fun dir' hd => ?_⟩
  have hnot : fileName base ext begin_ ∉ dir' := fun h => (hd begin_).mp h h2
  exact yieldSingles_none dir' base ext begin_ end_ hnot

/-! ## Sampling -/

/-- A label cannot be sampled. -/
theorem labels_fail (labels : List Flow.Label) (hl : labels ≠ []) (value : Flow.Label → Except Err ℚ) : (labels.mapM fun l => appendSample (value l)) = .error .systemExit := by
  cases labels with
  | nil => exact absurd rfl hl
  | cons l rest =>
    rw [List.mapM_cons]
    have : appendSample (value l) = .error .systemExit := by unfold appendSample; cases value l <;> rfl
    rw [this]; rfl

theorem sampleGroup_spec (st : Store γ) (line : ℚ → Text) (huge : ℚ) (recenter : Bool) (labels : List Flow.Label) (hl : labels ≠ [])
    (value : Flow.Flow × Flow.Flow → Flow.Label → Except Err ℚ) (average : ℤ) (rolling : Bool) (dt : ℚ) (save : Option Path) (fs : FS γ) (i : ℕ) (g : List Edges) :
    ∃ e, sampleGroup st line huge recenter labels value average rolling dt save fs i g = (fs, .error e) ∧
      (∀ r, sampledEdges huge recenter g = .ok r → e = .systemExit) := by
  unfold sampleGroup
  cases sampledEdges huge recenter g with
  | error e => exact ⟨e, rfl, fun r h => by cases h⟩
  | ok e => exact ⟨.systemExit, by simp only [labels_fail labels hl], fun _ _ => rfl⟩

/-- The files read by a sampling run: with the output already prepared and holding the header. -/
theorem sample_loop (read : γ → Except Err (Flow.Record × Flow.InfoDict)) (st : Store γ) (line : ℚ → Text) (huge : ℚ) (o : EdgeOpts) (m : ℕ) (hm : 0 < m)
    (rolling recenter : Bool) (labels : List Flow.Label) (hl : labels ≠ []) (value : Flow.Flow × Flow.Flow → Flow.Label → Except Err ℚ) (dt : ℚ) (save : Option Path) (fs : FS γ) (ns : List Text)
    (r : FS γ × Except Err Unit) (hr : edgeLoop (edgesOfFile read o) (sampleGroup st line huge recenter labels value m rolling dt save) m rolling fs 0 [] ns = r) :
    r.1 = fs ∧ (r.2 = .ok () ↔ ns.length < m ∧ ∃ g, ns.mapM (edgesOfFile read o fs) = .ok g) ∧
      ∀ g e, m ≤ ns.length → (ns.take m).mapM (edgesOfFile read o fs) = .ok g → sampledEdges huge recenter g = .ok e → r.2 = .error .systemExit := by
  have hc : ∀ (fs : FS γ) i g, (sampleGroup st line huge recenter labels value m rolling dt save fs i g).2 ≠ .ok () := by
    intro fs i g
    obtain ⟨e, h, -⟩ := sampleGroup_spec st line huge recenter labels hl value m rolling dt save fs i g
    rw [h]; simp
  rw [edgeLoop_first _ _ m rolling hc fs 0 _ [] hm] at hr
  simp only [List.length_nil, Nat.sub_zero, List.nil_append] at hr
  by_cases hlen : ns.length < m
  · rw [List.take_of_length_le hlen.le] at hr
    cases hf : ns.mapM (edgesOfFile read o fs) with
    | error e =>
      rw [hf] at hr; subst hr
      exact ⟨rfl, ⟨(fun h => by cases h), (fun ⟨_, g, h⟩ => by cases h)⟩, fun g e h => absurd hlen (by omega)⟩
    | ok g =>
      rw [hf] at hr; simp only at hr; rw [if_pos hlen] at hr; subst hr
      exact ⟨rfl, ⟨fun _ => ⟨hlen, g, rfl⟩, fun _ => rfl⟩, fun g e h => absurd hlen (by omega)⟩
  · cases hf : (ns.take m).mapM (edgesOfFile read o fs) with
    | error e =>
      rw [hf] at hr; subst hr
      exact ⟨rfl, ⟨(fun h => by cases h), fun h => absurd h.1 hlen⟩, (fun g e _ h => by cases h)⟩
    | ok g =>
      rw [hf] at hr; simp only at hr; rw [if_neg hlen] at hr
      obtain ⟨e, h1, h2⟩ := sampleGroup_spec st line huge recenter labels hl value m rolling dt save fs 0 g
      rw [h1] at hr; subst hr
      refine ⟨rfl, ⟨(fun h => by cases h), fun h => absurd h.1 hlen⟩, fun g' e' _ hg he => ?_⟩
      cases hg
      rw [h2 _ he]

/-- **C143, sampling (partial: what is left is that the run fails, with nothing lost).** The output holds the header and nothing else, a file that was there before is found under a free backup name, and
nothing else changes; the run succeeds only if fewer files are found than are averaged over. -/
theorem C143_sample_partial (read : γ → Except Err (Flow.Record × Flow.InfoDict)) (st : Store γ) (line : ℚ → Text) (head : List Text) (huge : ℚ) (o : EdgeOpts) (m : ℕ) (hm : 0 < m)
    (rolling recenter : Bool) (labels : List Flow.Label) (hl : labels ≠ []) (value : Flow.Flow × Flow.Flow → Flow.Label → Except Err ℚ) (dt : ℚ) (out : Text) (fs : FS γ) (dir : Dir) (base ext : Text)
    (begin_ : ℤ) (end_ : Option ℤ) (fs' : FS γ) (outcome : Except Err Unit)
    (hr : sample read st line head huge o m rolling recenter labels value dt (some out) fs dir base ext begin_ end_ = (fs', outcome)) :
    WrittenSafely fs fs' (splitPath out) (st.encode (joinLines head)) ∧
    (outcome = .ok () ↔ (yieldSingles dir base ext begin_ end_).length < m ∧ ∃ g, (yieldSingles dir base ext begin_ end_).mapM (edgesOfFile read o fs') = .ok g) ∧
    ∀ g e, m ≤ (yieldSingles dir base ext begin_ end_).length → ((yieldSingles dir base ext begin_ end_).take m).mapM (edgesOfFile read o fs') = .ok g →
      sampledEdges huge recenter g = .ok e → outcome = .error .systemExit := by
  obtain ⟨fs1, h1, h2⟩ := SavedRuns.prepared fs (splitPath out) (st.encode (joinLines head))
  unfold sample at hr
  simp only at hr
  rw [h1] at hr
  simp only at hr
  obtain ⟨a, b, c⟩ := sample_loop read st line huge o m hm rolling recenter labels hl value dt _ _ _ _ hr
  simp only at a b c
  subst a
  exact ⟨h2, b, c⟩

/-- **C143, sampling without an output.** No file changes. -/
theorem C143_sample_unsaved (read : γ → Except Err (Flow.Record × Flow.InfoDict)) (st : Store γ) (line : ℚ → Text) (head : List Text) (huge : ℚ) (o : EdgeOpts) (m : ℕ) (hm : 0 < m)
    (rolling recenter : Bool) (labels : List Flow.Label) (hl : labels ≠ []) (value : Flow.Flow × Flow.Flow → Flow.Label → Except Err ℚ) (dt : ℚ) (fs : FS γ) (dir : Dir) (base ext : Text)
    (begin_ : ℤ) (end_ : Option ℤ) : (sample read st line head huge o m rolling recenter labels value dt none fs dir base ext begin_ end_).1 = fs :=
  (sample_loop read st line huge o m hm rolling recenter labels hl value dt _ _ _ _ rfl).1

/-- A loop whose groups are all dealt with: `step` is the effect of a group, after which the files still to be read are as before. -/
theorem edgeLoop_all {α : Type} (file : FS γ → Text → Except Err α) (consume : FS γ → ℕ → List α → FS γ × Except Err Unit) (average : ℤ) (rolling : Bool) (step : FS γ → ℕ → FS γ) (ns : List Text) :
    ∀ (fs : FS γ) (i : ℕ) (acc as : List α), (∀ fs i, ∀ n ∈ ns, file (step fs i) n = file fs n) → ns.mapM (file fs) = .ok as →
      (∀ fs i, ∀ g ∈ groupLoop average rolling acc as, consume fs i g = (step fs i, .ok ())) →
      edgeLoop file consume average rolling fs i acc ns = ((List.range' i (groupLoop average rolling acc as).length).foldl step fs, .ok ()) := by
  induction ns with
  | nil =>
    intro fs i acc as _ h _
    cases h; rfl
  | cons n ns ih =>
    intro fs i acc as hst h hc
    rw [List.mapM_cons] at h
    obtain ⟨a, h1, h⟩ := Simple.bind_eq_ok h
    obtain ⟨as', h2, h⟩ := Simple.bind_eq_ok h
    cases h
    have hst' : ∀ fs i, ∀ m ∈ ns, file (step fs i) m = file fs m := fun fs i m hm => hst fs i m (List.mem_cons_of_mem _ hm)
    rw [edgeLoop, h1, groupLoop]
    simp only
    rw [groupLoop] at hc
    by_cases hm : ((acc ++ [a]).length : ℤ) = average
    · rw [if_pos hm, if_pos hm]
      rw [if_pos hm] at hc
      rw [hc fs i _ List.mem_cons_self]
      simp only
      have hsame : ns.mapM (file (step fs i)) = .ok as' := by
        rw [← h2]
        exact Simple.mapM_congr' (file (step fs i)) (file fs) ns (fun m hm => hst' fs i m hm)
      rw [ih (step fs i) (i + 1) _ as' hst' hsame fun fs i g hg => hc fs i g (List.mem_cons_of_mem _ hg), List.length_cons, List.range'_succ, List.foldl_cons]
    · rw [if_neg hm, if_neg hm]
      rw [if_neg hm] at hc
      exact ih fs i _ as' hst' h2 hc

/-- Lines appended by number. -/
theorem appended_numbers (st : Store γ) (hl : st.Lawful) (p : Path) (line : ℕ → Text) (n : ℕ) : ∀ (i : ℕ) (fs : FS γ) (t : Text), fs.get? p = some (st.encode t) →
    ((List.range' i n).foldl (fun fs k => appendTo st p fs (line k ++ ['\n'])) fs).get? p = some (st.encode (t ++ joinLines ((List.range' i n).map line))) ∧
    ∀ q, q ≠ p → ((List.range' i n).foldl (fun fs k => appendTo st p fs (line k ++ ['\n'])) fs).get? q = fs.get? q := by
  induction n with
  | zero => intro i fs t h; exact ⟨by simpa [joinLines] using h, fun q _ => rfl⟩
  | succ n ih =>
    intro i fs t h
    have h1 : (appendTo st p fs (line i ++ ['\n'])).get? p = some (st.encode (t ++ (line i ++ ['\n']))) := by
      unfold appendTo
      rw [get?_put, if_pos rfl, h, Option.elim_some, hl]
    obtain ⟨h2, h3⟩ := ih (i + 1) _ _ h1
    rw [List.range'_succ, List.foldl_cons]
    refine ⟨?_, fun q hq => ?_⟩
    · rw [h2, List.map_cons]
      have : joinLines (line i :: (List.range' (i + 1) n).map line) = line i ++ ['\n'] ++ joinLines ((List.range' (i + 1) n).map line) := by simp [joinLines]
      rw [this, List.append_assoc]
    · rw [h3 q hq]
      unfold appendTo
      rw [get?_put, if_neg hq]

/-- **C143, no labels.** Asked for no labels, the sampling of a series writes one row per complete group, with its time: blocks of `m` files, or all windows of `m` files if rolling. -/
theorem C143_sample_times (read : γ → Except Err (Flow.Record × Flow.InfoDict)) (st : Store γ) (hst : st.Lawful) (line : ℚ → Text) (head : List Text) (huge : ℚ) (o : EdgeOpts) (m : ℕ) (hm : 0 < m)
    (rolling recenter : Bool) (value : Flow.Flow × Flow.Flow → Flow.Label → Except Err ℚ) (dt : ℚ) (out : Text) (fs : FS γ) (dir : Dir) (base ext : Text) (begin_ : ℤ) (end_ : Option ℤ)
    (hout : ∀ n ∈ yieldSingles dir base ext begin_ end_, splitPath n ≠ splitPath out ∧ fs.get? (splitPath n) ≠ none) (as : List Edges)
    (hread : (yieldSingles dir base ext begin_ end_).mapM (edgesOfFile read o fs) = .ok as) (hok : ∀ g ∈ groupLoop m rolling [] as, ∃ e, sampledEdges huge recenter g = .ok e) :
    ∃ fs', sample read st line head huge o m rolling recenter [] value dt (some out) fs dir base ext begin_ end_ = (fs', .ok ()) ∧
      WrittenSafely fs fs' (splitPath out) (st.encode (joinLines (head ++
        (List.range (if rolling then (yieldSingles dir base ext begin_ end_).length + 1 - m else (yieldSingles dir base ext begin_ end_).length / m)).map
          fun k : ℕ => line (((if rolling then k else k * m) + m / 2 : ℕ) * dt)))) := by
  obtain ⟨fs1, h1, h2⟩ := SavedRuns.prepared fs (splitPath out) (st.encode (joinLines head))
  have hsame : (yieldSingles dir base ext begin_ end_).mapM (edgesOfFile read o (fs1.put (splitPath out) (st.encode (joinLines head)))) = .ok as := by
    rw [← hread]
    refine Simple.mapM_congr' _ _ _ fun n hn => ?_
    unfold edgesOfFile contentOf
    rw [h2.same (hout n hn).1 (hout n hn).2]
  have hstep : ∀ (fs : FS γ) (i : ℕ), ∀ n ∈ yieldSingles dir base ext begin_ end_,
      edgesOfFile read o (appendTo st (splitPath out) fs (line (edgeTime m rolling dt i) ++ ['\n'])) n = edgesOfFile read o fs n := by
    intro fs i n hn
    unfold edgesOfFile contentOf appendTo
    rw [get?_put, if_neg (hout n hn).1]
  have hloop := edgeLoop_all (edgesOfFile read o) (sampleGroup st line huge recenter [] value m rolling dt (some (splitPath out))) m rolling
    (fun fs k => appendTo st (splitPath out) fs (line (edgeTime m rolling dt k) ++ ['\n'])) _ _ 0 [] as hstep hsame (by
      intro fs i g hg
      obtain ⟨e, he⟩ := hok g hg
      unfold sampleGroup
      rw [he]; rfl)
  have hlen : as.length = (yieldSingles dir base ext begin_ end_).length := (Simple.mapM_length hread).symm
  have hN : (groupLoop m rolling [] as).length = if rolling then (yieldSingles dir base ext begin_ end_).length + 1 - m else (yieldSingles dir base ext begin_ end_).length / m := by
    cases rolling with
    | true => rw [(C79_rolling m hm as).1, hlen]; rfl
    | false => rw [(C79_blocks m hm as).1, hlen]; rfl
  obtain ⟨a1, a2⟩ := appended_numbers st hst (splitPath out) (fun k => line (edgeTime m rolling dt k)) (groupLoop m rolling [] as).length 0 _ (joinLines head) h2.1
  refine ⟨_, by unfold sample; simp only; rw [h1]; simp only; exact hloop, ?_⟩
  have hw := h2.later a1 a2
  have hl : (List.range (if rolling then (yieldSingles dir base ext begin_ end_).length + 1 - m else (yieldSingles dir base ext begin_ end_).length / m)).map
          (fun k : ℕ => line (((if rolling then k else k * m) + m / 2 : ℕ) * dt)) = (List.range' 0 (groupLoop m rolling [] as).length).map fun k => line (edgeTime m rolling dt k) := by
    rw [hN, List.range_eq_range']
    refine List.map_congr_left fun k _ => ?_
    cases rolling with
    | true => rw [(C79_times m dt k).2]; rfl
    | false => rw [(C79_times m dt k).1]; rfl
  rw [hl, joinLines_append]
  exact hw

/-! ## The commands -/

theorem edgeArgs_eq (c : EdgeChoice) (k : Kw) (h1 : get k "average" (.num 1) = .num c.average) (h2 : get k "rolling" (.bool false) = .bool c.rolling) (h3 : get k "recenter" (.bool false) = .bool c.recenter)
    (h4 : get k "begin" (.num 1) = .num c.first) (h5 : get k "end" .inf = boundOf (optInt c.last)) (h6 : get k "ext" (.text ".dat") = .text c.ext) (h7 : get k "floor" .none = optNum c.floor)
    (h8 : get k "cutoff" .none = optNum c.cutoff) (h9 : get k "cutoff_radius" .none = .num c.radius) (h10 : get k "cutoff_bins" (.num 1) = .num c.bins)
    (h11 : get k "extract_area" (.pair (some 0) (some 0)) = .pair (some c.area.1) (some c.area.2)) (h12 : get k "extract_height" (.num 0) = .num c.height) :
    edgeArgsOf k = .ok ⟨c.average, c.rolling, c.recenter, c.first, c.last, c.ext.toList,
      ⟨{ cutoff := c.cutoff, radius := some c.radius, bins := c.bins, ylims := (c.floor, none) }, c.area, c.height⟩⟩ := by
  unfold edgeArgsOf edgeOptsOf
  rw [h1, h2, h3, h4, h5, h6, h7, h8, h9, h10, h11, h12, whole_int, whole_int, whole_int, optNumber_eq, optNumber_eq, lastOf_eq]
  rfl

/-- **C143, `strata contact_line collect`.** The command does what the extraction with the options asked for does. -/
theorem C143_collect_command (F : F32) (huge : ℚ) (fs : FS Bytes) (dir : Dir) (base output : String) (given : Kw) (c : EdgeChoice) (h : c.Asked 1 given) (fuse : Bool)
    (hf : valueOf given "fuse" (.bool false) = .bool fuse) :
    extractCommand F huge fs dir (.text base) (.text output) given =
      extract (readMap F) huge ⟨{ cutoff := c.cutoff, radius := some c.radius, bins := c.bins, ylims := (c.floor, none) }, c.area, c.height⟩ c.average c.rolling c.recenter fuse fs dir base.toList
        output.toList c.ext.toList c.first c.last := by
  obtain ⟨call, h1, -, -, hg⟩ := C110_contact_line_collect (.text base) (.text output) given
  have ha := edgeArgs_eq c call.kwargs ((get_eq ((hg "average").trans rfl)).trans h.average) ((get_eq ((hg "rolling").trans rfl)).trans h.rolling)
    ((get_eq ((hg "recenter").trans rfl)).trans h.recenter) ((get_eq ((hg "begin").trans rfl)).trans h.first) ((get_eq ((hg "end").trans rfl)).trans (congrArg boundOf h.last))
    ((get_eq ((hg "ext").trans rfl)).trans h.ext) ((get_eq ((hg "floor").trans rfl)).trans h.floor) ((get_eq ((hg "cutoff").trans rfl)).trans h.cutoff)
    ((get_eq ((hg "cutoff_radius").trans rfl)).trans h.radius) ((get_eq ((hg "cutoff_bins").trans rfl)).trans h.bins) ((get_eq ((hg "extract_area").trans rfl)).trans h.area)
    ((get_eq ((hg "extract_height").trans rfl)).trans h.height)
  unfold extractCommand
  rw [h1, Commands.ok_bind, ha, Commands.ok_bind, get_eq ((hg "fuse").trans rfl), hf]
  rfl

/-- **C143, `strata contact_line sample`.** -/
theorem C143_sample_command (F : F32) (line : ℚ → Text) (head : Call → List Text) (huge : ℚ) (value : Call → Flow.Flow × Flow.Flow → Flow.Label → Except Err ℚ) (fs : FS Bytes) (dir : Dir)
    (base : String) (labels : List String) (given : Kw) (c : EdgeChoice) (h : c.Asked 0 given) (save : Option String) (hs : valueOf given "save" .none = save.elim .none .text) (dt : ℚ)
    (hdt : valueOf given "dt" (.num 1) = .num dt) :
    ∃ call, call.function = "sample_contact_line_edges" ∧
      contactSampleCommand F line head huge value fs dir (.text base) labels given =
        sample (readMap F) byteStore line (head call) huge ⟨{ cutoff := c.cutoff, radius := some c.radius, bins := c.bins, ylims := (c.floor, none) }, c.area, c.height⟩ c.average c.rolling
          c.recenter labels (value call) dt (if save = some "" then none else save.map String.toList) fs dir base.toList c.ext.toList c.first c.last := by
  obtain ⟨call, h1, h2, -, hg⟩ := C110_contact_line_sample_partial (.text base) labels given
  have ha := edgeArgs_eq c call.kwargs ((get_eq ((hg "average").trans rfl)).trans h.average) ((get_eq ((hg "rolling").trans rfl)).trans h.rolling)
    ((get_eq ((hg "recenter").trans rfl)).trans h.recenter) ((get_eq ((hg "begin").trans rfl)).trans h.first) ((get_eq ((hg "end").trans rfl)).trans (congrArg boundOf h.last))
    ((get_eq ((hg "ext").trans rfl)).trans h.ext) ((get_eq ((hg "floor").trans rfl)).trans h.floor) ((get_eq ((hg "cutoff").trans rfl)).trans h.cutoff)
    ((get_eq ((hg "cutoff_radius").trans rfl)).trans h.radius) ((get_eq ((hg "cutoff_bins").trans rfl)).trans h.bins) ((get_eq ((hg "extract_area").trans rfl)).trans h.area)
    ((get_eq ((hg "extract_height").trans rfl)).trans h.height)
  refine ⟨call, h2, ?_⟩
  unfold contactSampleCommand
  rw [h1, Commands.ok_bind, ha, Commands.ok_bind, get_eq ((hg "save").trans rfl), get_eq ((hg "dt").trans rfl), hs, hdt, saveTo_opt]
  rfl

/-! ## Examples -/

/-- A droplet of two layers in two files, extracted one by one. -/
def exOpts : EdgeOpts := ⟨{ cutoff := some 1, radius := some 1, bins := 1 }, (1, 1), 0⟩

def exInfo : Flow.InfoDict := [("spacing", .tuple [some 1, some 1])]

def exFs : FS (Flow.Record × Flow.InfoDict) := [(splitPath "m00001.dat".toList, (exDrop, exInfo)), (splitPath "m00002.dat".toList, (exDrop, exInfo))]

def exDir : Dir := ["m00001.dat".toList, "m00002.dat".toList]

theorem exDir_found : yieldSingles exDir "m".toList ".dat".toList 1 none = exDir := by decide +kernel

/-- The edges of the droplet. -/
def exEdges : Edges :=
  (([("X", [0, 1, 0, 1]), ("Y", [0, 0, 1, 1]), ("U", [1, 2, 3, 4]), ("V", [0, 1, 0, 1]), ("T", [5, 5, 6, 6]), ("M", [2, 2, 2, 2]), ("N", [2, 2, 1, 1])], { spacing := some (1, 1) }),
   ([("X", [2, 3, 2, 3]), ("Y", [0, 0, 1, 1]), ("U", [1, 2, 3, 4]), ("V", [0, 1, 0, 1]), ("T", [5, 5, 6, 6]), ("M", [2, 2, 2, 2]), ("N", [2, 2, 1, 1])], { spacing := some (1, 1) }))

theorem exRead1 : edgesOfFile .ok exOpts exFs "m00001.dat".toList = .ok exEdges := by decide +kernel

theorem exRead2 : edgesOfFile .ok exOpts exFs "m00002.dat".toList = .ok exEdges := by decide +kernel

theorem exRead : (exDir.take 1).mapM (edgesOfFile .ok exOpts exFs) = .ok [exEdges] := by
  show ["m00001.dat".toList].mapM _ = _
  rw [List.mapM_cons, exRead1]; rfl

/-- The first group can be combined, so that the run fails, and run in place it takes the first file away. -/
example : ∃ fs', extract .ok 1000 exOpts (1 : ℕ) false true false exFs exDir "m".toList "m".toList ".dat".toList 1 none = (fs', .error .typeError) ∧
    fs'.get? (splitPath "m00001.dat".toList) = none ∧ exFs.get? (splitPath "m00001.dat".toList) = some (exDrop, exInfo) := by
  have hf : ∃ f, groupMap 1000 true false [exEdges] = .ok f := by
    have : (groupMap 1000 true false [exEdges]).isOk = true := by decide +kernel
    cases h : groupMap 1000 true false [exEdges] with
    | error e => rw [h] at this; cases this
    | ok f => exact ⟨f, rfl⟩
  obtain ⟨f, hf⟩ := hf
  obtain ⟨fs', h1, h2, -⟩ := C143_in_place_counterexample (.ok) 1000 exOpts 1 (by norm_num) false true false exFs exDir "m".toList ".dat".toList 1 none
    (by rw [exDir_found]; decide) [exEdges] (by rw [exDir_found]; exact exRead) f hf
  exact ⟨fs', h1, h2, by decide +kernel⟩

/-- Averages over three files: nothing happens. -/
example : extract .ok 1000 exOpts (3 : ℕ) false true false exFs exDir "m".toList "m".toList ".dat".toList 1 none = (exFs, .ok ()) := by
  have h2 : exDir.mapM (edgesOfFile .ok exOpts exFs) = .ok [exEdges, exEdges] := by
    show ["m00001.dat".toList, "m00002.dat".toList].mapM _ = _
    rw [List.mapM_cons, exRead1, Commands.ok_bind, List.mapM_cons, exRead2]; rfl
  unfold extract
  rw [exDir_found]
  rw [edgeLoop_first _ _ 3 false (by
    intro fs i g
    rcases extractGroup_spec 1000 true false "m".toList ".dat".toList 1 fs i g with ⟨e, h, -⟩ | ⟨f, fs', -, h, -⟩ <;> rw [h] <;> simp) exFs 0 exDir [] (by simp)]
  rw [show List.take (3 - ([] : List Edges).length) exDir = exDir from rfl, h2]
  rfl

/-- Sampling the mass: the output holds the header only, and the program ends with an error. -/
example (st : Store (Flow.Record × Flow.InfoDict)) (value : Flow.Flow × Flow.Flow → Flow.Label → Except Err ℚ) (fs' : FS (Flow.Record × Flow.InfoDict)) (outcome : Except Err Unit)
    (hr : sample .ok st (fun _ => []) ["# head".toList] 1000 exOpts (1 : ℕ) false true ["M"] value 1 (some "out.xvg".toList) exFs exDir "m".toList ".dat".toList 1 none = (fs', outcome)) :
    fs'.get? (splitPath "out.xvg".toList) = some (st.encode "# head\n".toList) ∧ outcome = .error .systemExit := by
  obtain ⟨h1, -, h3⟩ := C143_sample_partial .ok st (fun _ => []) ["# head".toList] 1000 exOpts 1 (by norm_num) false true ["M"] (by simp) value 1 "out.xvg".toList exFs exDir "m".toList
    ".dat".toList 1 none fs' outcome hr
  have hsame : fs'.get? (splitPath "m00001.dat".toList) = exFs.get? (splitPath "m00001.dat".toList) := h1.same (by decide) (by decide +kernel)
  have hrd : (exDir.take 1).mapM (edgesOfFile .ok exOpts fs') = .ok [exEdges] := by
    have e1 : edgesOfFile .ok exOpts fs' "m00001.dat".toList = .ok exEdges := by
      rw [← exRead1]
      unfold edgesOfFile contentOf
      rw [hsame]
    show ["m00001.dat".toList].mapM _ = _
    rw [List.mapM_cons, e1]; rfl
  have he : ∃ e, sampledEdges 1000 true [exEdges] = .ok e := by
    have : (sampledEdges 1000 true [exEdges]).isOk = true := by decide +kernel
    cases h : sampledEdges 1000 true [exEdges] with
    | error e => rw [h] at this; cases this
    | ok f => exact ⟨f, rfl⟩
  obtain ⟨e, he⟩ := he
  exact ⟨h1.1, h3 [exEdges] e (by rw [exDir_found]; decide) (by rw [exDir_found]; exact hrd) he⟩

/-- Asked for no labels, a row per file. -/
example (st : Store (Flow.Record × Flow.InfoDict)) (hst : st.Lawful) (line : ℚ → Text) (value : Flow.Flow × Flow.Flow → Flow.Label → Except Err ℚ) :
    ∃ fs', sample .ok st line ["# head".toList] 1000 exOpts (1 : ℕ) false true [] value 2 (some "out.xvg".toList) exFs exDir "m".toList ".dat".toList 1 none = (fs', .ok ()) ∧
      fs'.get? (splitPath "out.xvg".toList) = some (st.encode (joinLines ["# head".toList, line 0, line 2])) := by
  have hr : exDir.mapM (edgesOfFile .ok exOpts exFs) = .ok [exEdges, exEdges] := by
    show ["m00001.dat".toList, "m00002.dat".toList].mapM _ = _
    rw [List.mapM_cons, exRead1, Commands.ok_bind, List.mapM_cons, exRead2]; rfl
  have he : ∃ e, sampledEdges 1000 true [exEdges] = .ok e := by
    have : (sampledEdges 1000 true [exEdges]).isOk = true := by decide +kernel
    cases h : sampledEdges 1000 true [exEdges] with
    | error e => rw [h] at this; cases this
    | ok f => exact ⟨f, rfl⟩
  obtain ⟨fs', h1, h2⟩ := C143_sample_times .ok st hst line ["# head".toList] 1000 exOpts 1 (by norm_num) false true value 2 "out.xvg".toList exFs exDir "m".toList ".dat".toList 1 none
    (by rw [exDir_found]; decide +kernel) [exEdges, exEdges] (by rw [exDir_found]; exact hr)
    (by intro g hg; simp [groupLoop] at hg; subst hg; exact he)
  refine ⟨fs', h1, ?_⟩
  rw [h2.1, exDir_found]
  have : (List.range (if false = true then exDir.length + 1 - 1 else exDir.length / 1)).map (fun k : ℕ => line (((if false = true then k else k * 1) + 1 / 2 : ℕ) * 2)) = [line 0, line 2] := by
    show [line _, line _] = _
    norm_num
  rw [this]
  rfl

/-- Command lines. -/
example : EdgeChoice.Asked ⟨2, true, true, none, (1, 1), 0, some 3, 1, 1, 1, none, ".dat"⟩ 1 [("average", .num 2), ("rolling", .bool true), ("cutoff", .num 3)] := by
  constructor <;> rfl

end Strata.ContactLineFiles
