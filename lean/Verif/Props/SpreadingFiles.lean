import Verif.Model.SpreadingFiles
import Verif.Proofs.FilesFS
import Verif.Props.SpreadingText
import Verif.Proofs.SimpleText
import Verif.Props.Files
/-!
# Collecting a spreading curve from files: C121
-/
namespace Strata.SpreadingFiles
open Strata Strata.Flow Strata.Files Strata.Spreading Strata.SpreadingText Strata.Spec

variable {γ : Type}

/-- Appending to a stored text stores the longer text. -/
def Store.Lawful (st : Store γ) : Prop := ∀ a b, st.append (st.encode a) b = st.encode (a ++ b)

theorem byteStore_lawful : byteStore.Lawful := fun a b => by simp [byteStore]

/-- Lines appended one by one. -/
theorem appended (st : Store γ) (hl : st.Lawful) (p : Path) (ls : List Line) (fs : FS γ) (t : Text) (h : fs.get? p = some (st.encode t)) :
    (ls.foldl (fun fs l => appendTo st p fs (joinLines (lineTexts l))) fs).get? p = some (st.encode (t ++ joinLines (ls.flatMap lineTexts))) ∧
    ∀ q, q ≠ p → (ls.foldl (fun fs l => appendTo st p fs (joinLines (lineTexts l))) fs).get? q = fs.get? q := by
  induction ls generalizing fs t with
  | nil => exact ⟨by simpa [joinLines] using h, fun q _ => rfl⟩
  | cons l ls ih =>
    have h1 : (appendTo st p fs (joinLines (lineTexts l))).get? p = some (st.encode (t ++ joinLines (lineTexts l))) := by
      unfold appendTo
      rw [get?_put, if_pos rfl, h, Option.elim_some, hl]
    obtain ⟨h2, h3⟩ := ih _ _ h1
    refine ⟨?_, fun q hq => ?_⟩
    · rw [List.foldl_cons, h2, List.flatMap_cons, joinLines_append, List.append_assoc]
    · rw [List.foldl_cons, h3 q hq]
      unfold appendTo
      rw [get?_put, if_neg hq]

/-- One iteration only adds lines. -/
theorem step_lines (dt : ℚ) (save : Bool) (s : State) (i : ℕ) (f : Frame) : s.lines <+: (step dt save s i f).lines := by
  unfold step
  rcases f.edges with _ | ⟨l, r⟩
  · exact List.prefix_refl _
  · cases save
    · exact List.prefix_refl _
    · simp only [if_true, List.append_assoc]
      exact List.prefix_append _ _

theorem afterStep_some (st : Store γ) (hl : st.Lawful) (h : Header) (p : Path) (fs : FS γ) (s s' : State) (hs : s.lines <+: s'.lines)
    (hp : fs.get? p = some (st.encode (savedFile h s.lines))) :
    (afterStep st (some p) fs s s').get? p = some (st.encode (savedFile h s'.lines)) ∧ ∀ q, q ≠ p → (afterStep st (some p) fs s s').get? q = fs.get? q := by
  obtain ⟨ls, e⟩ := hs
  have hd : s'.lines.drop s.lines.length = ls := by rw [← e]; simp
  unfold afterStep
  simp only
  rw [hd]
  obtain ⟨h1, h2⟩ := appended st hl p ls fs _ hp
  refine ⟨?_, h2⟩
  rw [h1, ← e]
  unfold savedFile
  rw [List.flatMap_append, ← joinLines_append, List.append_assoc]

/-- Only the content of the file itself matters for its frame. -/
theorem fileFrame_congr (read : γ → Except Err Flow) (o : CollectOpts) (fs fs' : FS γ) (name : Text) (h : fs'.get? (splitPath name) = fs.get? (splitPath name)) :
    fileFrame read o fs' name = fileFrame read o fs name := by
  unfold fileFrame; rw [h]

/-- A frame keeps the name of its file. -/
theorem fileFrame_path {read : γ → Except Err Flow} {o : CollectOpts} {fs : FS γ} {name : Text} {f : Frame} (h : fileFrame read o fs name = .ok f) : f.path = name := by
  unfold fileFrame at h
  cases hg : fs.get? (splitPath name) with
  | none => rw [hg] at h; cases h
  | some c =>
    rw [hg, Option.elim_some] at h
    obtain ⟨g, -, h⟩ := Simple.bind_eq_ok h
    unfold frameOf at h
    obtain ⟨s, -, h⟩ := Simple.bind_eq_ok h
    obtain ⟨e, -, h⟩ := Simple.bind_eq_ok h
    rcases e with _ | e
    · rw [← Except.ok.inj h]
    · rcases hb : boxSize g with _ | b
      · rw [hb] at h; cases h
      · rw [hb] at h
        rw [← Except.ok.inj h]

/-- How far a run over files got: the first `k` were read as `frames`, and either these were all, or the next one is refused. -/
def Reached (read : γ → Except Err Flow) (o : CollectOpts) (fs : FS γ) (names : List Text) (frames : List Frame) (outcome : Except Err Unit) : Prop :=
  ∃ k ≤ names.length, List.Forall₂ (fun n f => fileFrame read o fs n = .ok f) (names.take k) frames ∧
    ((k = names.length ∧ outcome = .ok ()) ∨ ∃ n e, names[k]? = some n ∧ fileFrame read o fs n = .error e ∧ outcome = .error e)

theorem Reached.cons {read : γ → Except Err Flow} {o : CollectOpts} {fs : FS γ} {n : Text} {names : List Text} {f : Frame} {frames : List Frame} {out : Except Err Unit}
    (hf : fileFrame read o fs n = .ok f) (h : Reached read o fs names frames out) : Reached read o fs (n :: names) (f :: frames) out := by
  obtain ⟨k, hk, hfr, hend⟩ := h
  refine ⟨k + 1, by simpa using hk, ?_, ?_⟩
  · rw [List.take_succ_cons]; exact .cons hf hfr
  · rcases hend with ⟨h1, h2⟩ | ⟨m, e, h1, h2, h3⟩
    · exact .inl ⟨by simp [h1], h2⟩
    · exact .inr ⟨m, e, by simpa using h1, h2, h3⟩

theorem Reached.congr {read : γ → Except Err Flow} {o : CollectOpts} {fs fs' : FS γ} {names : List Text} {frames : List Frame} {out : Except Err Unit}
    (hc : ∀ n ∈ names, fs'.get? (splitPath n) = fs.get? (splitPath n)) (h : Reached read o fs' names frames out) : Reached read o fs names frames out := by
  obtain ⟨k, hk, hfr, hend⟩ := h
  refine ⟨k, hk, ?_, ?_⟩
  · have hsub : ∀ n ∈ names.take k, fs'.get? (splitPath n) = fs.get? (splitPath n) := fun n hn => hc n (List.mem_of_mem_take hn)
    clear hend hk
    generalize names.take k = l at hfr hsub
    induction hfr with
    | nil => exact .nil
    | cons h1 _ ih =>
      refine .cons ?_ (ih fun n hn => hsub n (by simp [hn]))
      rw [← h1]
      exact (fileFrame_congr read o fs fs' _ (hsub _ (by simp))).symm
  · rcases hend with h1 | ⟨m, e, h1, h2, h3⟩
    · exact .inl h1
    · refine .inr ⟨m, e, h1, ?_, h3⟩
      rw [← h2]
      exact (fileFrame_congr read o fs fs' _ (hc m (List.mem_of_getElem? h1))).symm

/-- The loop with an output file. -/
theorem collectLoop_saved (read : γ → Except Err Flow) (st : Store γ) (hl : st.Lawful) (h : Header) (p : Path) (o : CollectOpts) (names : List Text) (fs : FS γ) (s : State) (i : ℕ)
    (hn : ∀ n ∈ names, splitPath n ≠ p) (hp : fs.get? p = some (st.encode (savedFile h s.lines))) :
    ∃ frames, Reached read o fs names frames (collectLoop read st (some p) o fs s i names).outcome ∧
      (collectLoop read st (some p) o fs s i names).rows = (loop o.dt true s i frames).rows ∧
      (collectLoop read st (some p) o fs s i names).flag = (loop o.dt true s i frames).flag ∧
      (collectLoop read st (some p) o fs s i names).fs.get? p = some (st.encode (savedFile h (loop o.dt true s i frames).lines)) ∧
      ∀ q, q ≠ p → (collectLoop read st (some p) o fs s i names).fs.get? q = fs.get? q := by
  induction names generalizing fs s i with
  | nil => exact ⟨[], ⟨0, by simp, by simp, .inl ⟨rfl, rfl⟩⟩, rfl, rfl, hp, fun q _ => rfl⟩
  | cons n names ih =>
    cases hf : fileFrame read o fs n with
    | error e =>
      unfold collectLoop
      rw [hf]
      exact ⟨[], ⟨0, by simp, by simp, .inr ⟨n, e, rfl, hf, rfl⟩⟩, rfl, rfl, hp, fun q _ => rfl⟩
    | ok f =>
      obtain ⟨a1, a2⟩ := afterStep_some st hl h p fs s (step o.dt true s i f) (step_lines _ _ _ _ _) hp
      obtain ⟨frames, b1, b2, b3, b4, b5⟩ := ih (afterStep st (some p) fs s (step o.dt true s i f)) (step o.dt true s i f) (i + 1) (fun m hm => hn m (by simp [hm])) a1
      unfold collectLoop
      rw [hf]
      simp only [Option.isSome_some]
      refine ⟨f :: frames, Reached.cons hf (b1.congr fun m hm => a2 _ (hn m (by simp [hm]))), b2, b3, b4, fun q hq => ?_⟩
      rw [b5 q hq, a2 q hq]

/-- The loop without an output file. -/
theorem collectLoop_plain (read : γ → Except Err Flow) (st : Store γ) (o : CollectOpts) (names : List Text) (fs : FS γ) (s : State) (i : ℕ) :
    ∃ frames, Reached read o fs names frames (collectLoop read st none o fs s i names).outcome ∧
      (collectLoop read st none o fs s i names).rows = (loop o.dt false s i frames).rows ∧
      (collectLoop read st none o fs s i names).flag = (loop o.dt false s i frames).flag ∧
      (collectLoop read st none o fs s i names).fs = fs := by
  induction names generalizing s i with
  | nil => exact ⟨[], ⟨0, by simp, by simp, .inl ⟨rfl, rfl⟩⟩, rfl, rfl, rfl⟩
  | cons n names ih =>
    cases hf : fileFrame read o fs n with
    | error e =>
      unfold collectLoop
      rw [hf]
      exact ⟨[], ⟨0, by simp, by simp, .inr ⟨n, e, rfl, hf, rfl⟩⟩, rfl, rfl, rfl⟩
    | ok f =>
      obtain ⟨frames, b1, b2, b3, b4⟩ := ih (step o.dt false s i f) (i + 1)
      unfold collectLoop
      rw [hf]
      simp only [Option.isSome_none, afterStep]
      exact ⟨f :: frames, Reached.cons hf b1, b2, b3, b4⟩

/-- Whether the curve is written makes no difference for it. -/
theorem loop_unsaved (dt : ℚ) (frames : List Frame) (s s' : State) (i : ℕ) (h1 : s.info = s'.info) (h2 : s.time = s'.time) (h3 : s.rows = s'.rows) :
    (loop dt false s i frames).rows = (loop dt true s' i frames).rows ∧ (loop dt false s i frames).flag = s.flag := by
  induction frames generalizing s s' i with
  | nil => exact ⟨h3, rfl⟩
  | cons f fs ih =>
    unfold loop
    have hs : (step dt false s i f).info = (step dt true s' i f).info ∧ (step dt false s i f).time = (step dt true s' i f).time ∧
        (step dt false s i f).rows = (step dt true s' i f).rows ∧ (step dt false s i f).flag = s.flag := by
      unfold step
      rcases f.edges with _ | ⟨l, r⟩
      · exact ⟨h1, h2, h3, rfl⟩
      · simp only [h1, h2, h3]
        refine ⟨?_, ?_, ?_, ?_⟩ <;> simp
    obtain ⟨g1, g2⟩ := ih _ _ (i + 1) hs.1 hs.2.1 hs.2.2.1
    exact ⟨g1, g2.trans hs.2.2.2⟩

/-- **C121, saved.** The curve is collected from the numbered files found, in their order, up to the first one which cannot be read.  The output is then the header and the lines of the curve so
far, also if the call ends with an exception; a previous file of this name is kept under a free backup name, every other file is left alone. -/
theorem C121_saved (read : γ → Except Err Flow) (st : Store γ) (hl : st.Lawful) (h : Header) (out : Text) (o : CollectOpts) (flag : Bool) (fs : FS γ) (dir : Dir)
    (base ext : Text) (b : ℤ) (e : Option ℤ) (hin : ∀ n ∈ yieldSingles dir base ext b e, splitPath n ≠ splitPath out ∧ fs.get? (splitPath n) ≠ none) :
    ∃ frames, Reached read o fs (yieldSingles dir base ext b e) frames (collectFiles read st h (some out) o flag fs dir base ext b e).outcome ∧
      (collectFiles read st h (some out) o flag fs dir base ext b e).rows = (collect o.dt o.t0 true flag frames).rows ∧
      (collectFiles read st h (some out) o flag fs dir base ext b e).flag = (collect o.dt o.t0 true flag frames).flag ∧
      (collectFiles read st h (some out) o flag fs dir base ext b e).fs.get? (splitPath out) = some (st.encode (savedFile h (collect o.dt o.t0 true flag frames).lines)) ∧
      ((fs.get? (splitPath out) = none ∧
          ∀ q, q ≠ splitPath out → (collectFiles read st h (some out) o flag fs dir base ext b e).fs.get? q = fs.get? q) ∨
        ∃ c k, fs.get? (splitPath out) = some c ∧ 1 ≤ k ∧ fs.get? (backupPath (splitPath out) k) = none ∧
          (collectFiles read st h (some out) o flag fs dir base ext b e).fs.get? (backupPath (splitPath out) k) = some c ∧
          ∀ q, q ≠ splitPath out → q ≠ backupPath (splitPath out) k → (collectFiles read st h (some out) o flag fs dir base ext b e).fs.get? q = fs.get? q) := by
  obtain ⟨fs', h1, h2, h3⟩ := C06_prepare_path_safe fs (splitPath out)
  have hw : writeHeader st h fs (some (splitPath out)) = .ok (fs'.put (splitPath out) (st.encode (joinLines (headerLines h)))) := by
    unfold writeHeader
    simp only
    rw [h1]
    rfl
  have hstart : (fs'.put (splitPath out) (st.encode (joinLines (headerLines h)))).get? (splitPath out) = some (st.encode (savedFile h [])) := by
    rw [get?_put, if_pos rfl]; simp [savedFile]
  have hkeep : ∀ q, q ≠ splitPath out → (fs'.put (splitPath out) (st.encode (joinLines (headerLines h)))).get? q = fs'.get? q := by
    intro q hq; rw [get?_put, if_neg hq]
  have hsame : ∀ n ∈ yieldSingles dir base ext b e, (fs'.put (splitPath out) (st.encode (joinLines (headerLines h)))).get? (splitPath n) = fs.get? (splitPath n) := by
    intro n hn
    obtain ⟨g1, g2⟩ := hin n hn
    rw [hkeep _ g1]
    rcases h3 with ⟨-, rfl⟩ | ⟨c, k, -, -, -, -, hfree, -, hrest⟩
    · rfl
    · exact hrest _ g1 fun hb => g2 (by rw [hb]; exact hfree)
  obtain ⟨frames, b1, b2, b3, b4, b5⟩ := collectLoop_saved read st hl h (splitPath out) o (yieldSingles dir base ext b e)
    (fs'.put (splitPath out) (st.encode (joinLines (headerLines h)))) ⟨initPeriodicInfo, o.t0, [], flag, []⟩ 0 (fun n hn => (hin n hn).1) hstart
  have hc : collectFiles read st h (some out) o flag fs dir base ext b e =
      collectLoop read st (some (splitPath out)) o (fs'.put (splitPath out) (st.encode (joinLines (headerLines h)))) ⟨initPeriodicInfo, o.t0, [], flag, []⟩ 0
        (yieldSingles dir base ext b e) := by
    unfold collectFiles; rw [Option.map_some, hw]
  rw [hc]
  refine ⟨frames, b1.congr hsame, b2, b3, b4, ?_⟩
  rcases h3 with ⟨hn, rfl⟩ | ⟨c, k, hc, hk, -, -, hfree, hb, hrest⟩
  · exact .inl ⟨hn, fun q hq => by rw [b5 q hq, hkeep q hq]⟩
  · refine .inr ⟨c, k, hc, hk, hfree, ?_, fun q hq hq' => ?_⟩
    · rw [b5 _ (backupPath_ne _ _), hkeep _ (backupPath_ne _ _), hb]
    · rw [b5 q hq, hkeep q hq, hrest q hq hq']

/-- **C121, read back.** The saved curve, if it has two points, is found again by reading the output file: the times and radii returned, with three decimals. -/
theorem C121_read_back (read : γ → Except Err Flow) (st : Store γ) (hl : st.Lawful) (decode : γ → Text) (hd : ∀ t, decode (st.encode t) = t) (h : Header) (out : Text) (o : CollectOpts)
    (flag : Bool) (fs : FS γ) (dir : Dir) (base ext : Text) (b : ℤ) (e : Option ℤ) (hh : h.All (· ≠ '\n'))
    (hin : ∀ n ∈ yieldSingles dir base ext b e, splitPath n ≠ splitPath out ∧ fs.get? (splitPath n) ≠ none ∧ ∀ c ∈ SpreadingText.fileName n, c ≠ '\n')
    (h2 : 2 ≤ (collectFiles read st h (some out) o flag fs dir base ext b e).rows.length) :
    ∃ more, readSpreading (fun n => ((collectFiles read st h (some out) o flag fs dir base ext b e).fs.get? (splitPath n)).map decode) [out] =
      (⟨out ++ ".1".toList, (collectFiles read st h (some out) o flag fs dir base ext b e).rows.map fun r => (.num (rounded 3 r.time), .num (rounded 3 r.radius))⟩ :: more, []) := by
  obtain ⟨frames, ⟨k, -, hf, -⟩, h3, -, h4, -⟩ := C121_saved read st hl h out o flag fs dir base ext b e fun n hn => ⟨(hin n hn).1, (hin n hn).2.1⟩
  have hpath : ∀ f ∈ frames, ∃ n ∈ yieldSingles dir base ext b e, f.path = n := by
    have hsub : ∀ n ∈ (yieldSingles dir base ext b e).take k, n ∈ yieldSingles dir base ext b e := fun n hn => List.mem_of_mem_take hn
    generalize (yieldSingles dir base ext b e).take k = l at hf hsub
    clear h3 h4
    induction hf with
    | nil => simp
    | cons h1 _ ih =>
      intro f hf
      rcases List.mem_cons.mp hf with rfl | hf
      · exact ⟨_, hsub _ (by simp), fileFrame_path h1⟩
      · exact ih (fun n hn => hsub n (by simp [hn])) f hf
  rw [h3] at h2 ⊢
  refine C97_radii_partial h o.dt o.t0 flag frames out _ ?_ hh ?_ h2
  · rw [h4, Option.map_some, hd]
  · intro f hf c hc
    obtain ⟨n, hn, e⟩ := hpath f hf
    rw [e] at hc
    exact (hin n hn).2.2 c hc

/-- **C121, not saved.** Without an output file nothing is written, and the same curve is returned. -/
theorem C121_not_saved (read : γ → Except Err Flow) (st : Store γ) (h : Header) (o : CollectOpts) (flag : Bool) (fs : FS γ) (dir : Dir) (base ext : Text) (b : ℤ) (e : Option ℤ) :
    (collectFiles read st h none o flag fs dir base ext b e).fs = fs ∧ (collectFiles read st h none o flag fs dir base ext b e).flag = flag ∧
    ∃ frames, Reached read o fs (yieldSingles dir base ext b e) frames (collectFiles read st h none o flag fs dir base ext b e).outcome ∧
      (collectFiles read st h none o flag fs dir base ext b e).rows = (collect o.dt o.t0 true flag frames).rows := by
  have hc : collectFiles read st h none o flag fs dir base ext b e =
      collectLoop read st none o fs ⟨initPeriodicInfo, o.t0, [], flag, []⟩ 0 (yieldSingles dir base ext b e) := rfl
  rw [hc]
  obtain ⟨frames, b1, b2, b3, b4⟩ := collectLoop_plain read st o (yieldSingles dir base ext b e) fs ⟨initPeriodicInfo, o.t0, [], flag, []⟩ 0
  refine ⟨b4, ?_, frames, b1, ?_⟩
  · rw [b3]
    exact (loop_unsaved o.dt frames _ _ 0 rfl rfl rfl).2
  · rw [b2]
    exact (loop_unsaved o.dt frames _ _ 0 rfl rfl rfl).1

end Strata.SpreadingFiles
