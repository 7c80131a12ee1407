import Verif.Model.KilledSeries
import Verif.Props.SavedRuns
import Verif.Props.Killed
import Verif.Props.SpreadingMaps
/-!
# C138: sampling runs that are interrupted
-/
namespace Strata.KilledSeries
open Strata Strata.Files Strata.Flow Strata.Bytes Strata.Spreading Strata.SpreadingText Strata.SpreadingFiles Strata.SavedRuns Strata.Killed Strata.Driver

variable {ρ : Type}

/-- What an interrupted run with the output `out`, whose complete content would be `full`, may leave in the files: the output is as before, missing or a beginning of `full`; every other file that
existed is unchanged; and all contents that existed still do (that of an old output under another name). -/
structure LeftBehind (fs fs' : FS Bytes) (out : Path) (full : Bytes) : Prop where
  output : HalfWritten (fs.get? out) (fs'.get? out) full
  others : ∀ q, q ≠ out → fs.get? q ≠ none → fs'.get? q = fs.get? q
  contents : ∃ extra : List Bytes, extra.length ≤ 1 ∧ (∀ x ∈ extra, x <+: full) ∧ (fs'.map Prod.snd).Perm (extra ++ fs.map Prod.snd)

theorem cutShort_op (fs : FS Bytes) (op : WriteOp) (k m : ℕ) : cutShort fs (op.steps fs) k m = op.crash fs k m := rfl

/-- An interrupted write. -/
theorem leftBehind_op (fs : FS Bytes) (op : WriteOp) (hw : (fs.map Prod.fst).Nodup) (k m : ℕ) : LeftBehind fs (cutShort fs (op.steps fs) k m) op.path op.chunks.flatten := by
  obtain ⟨-, h2, h3, h4⟩ := crash_props fs op k m hw
  exact ⟨h3, fun q hq he => h4 q hq (.inl he), h2⟩

/-- The rows are appended to the header, like further pieces of one write. -/
theorem rowSteps_eq (item : ℕ → Option Bytes → Item ρ) (line : ρ → Text) (out : Path) (names : List Text) (hn : ∀ n ∈ names, splitPath n ≠ out) (fs : FS Bytes) (i : ℕ) (rows : List ρ)
    (o : Except Err Unit) (h : Rows item i (names.map fun n => fs.get? (splitPath n)) rows o) :
    rowSteps item line out fs i names = rows.map fun r => .append out (byteStore.encode (line r ++ ['\n'])) := by
  induction names generalizing fs i rows with
  | nil =>
    cases h
    rfl
  | cons n names ih =>
    unfold rowSteps
    rw [List.map_cons] at h
    cases h with
    | @row _ _ _ r rs _ h1 h2 =>
      rw [h1]
      simp only
      rw [List.map_cons, ih (fun m hm => hn m (by simp [hm])) _ (i + 1) rs]
      have hsame : (names.map fun m => (Step.run fs (.append out (byteStore.encode (line r ++ ['\n'])))).get? (splitPath m)) = names.map fun m => fs.get? (splitPath m) := by
        refine List.map_congr_left fun m hm => ?_
        have hne := hn m (by simp [hm])
        simp only [Step.run]
        cases fs.get? out with
        | none => rfl
        | some c => simp only; rw [get?_put, if_neg hne]
      rw [hsame]
      exact h2
    | skip h1 h2 =>
      rw [h1]
      simp only
      exact ih (fun m hm => hn m (by simp [hm])) _ (i + 1) _ h2
    | stop h1 =>
      rw [h1]
      rfl

theorem encode_append (a b : Text) : byteStore.encode (a ++ b) = byteStore.encode a ++ byteStore.encode b := by simp [byteStore]

theorem encode_lines : ∀ ls : List Text, byteStore.encode (joinLines ls) = (ls.map fun l => byteStore.encode (l ++ ['\n'])).flatten
  | [] => rfl
  | l :: ls => by
    rw [List.map_cons, List.flatten_cons, ← encode_lines ls, ← encode_append]
    simp [joinLines]

/-- Inputs that exist are not changed by the header. -/
theorem first_keeps (fs : FS Bytes) (hw : (fs.map Prod.fst).Nodup) (out : Path) (c : Bytes) {q : Path} (hq : q ≠ out) (he : fs.get? q ≠ none) :
    ((WriteOp.steps fs ⟨out, [c]⟩).foldl Step.run fs).get? q = fs.get? q :=
  (run_props fs ⟨out, [c]⟩ hw).2.2.2 q hq (.inl he)

/-- The whole call consists of the steps of one write: header and rows. -/
theorem runSteps_eq (item : ℕ → Option Bytes → Item ρ) (line : ρ → Text) (head : List Text) (out : Text) (fs : FS Bytes) (hw : (fs.map Prod.fst).Nodup) (dir : Dir) (base ext : Text) (b : ℤ)
    (e : Option ℤ) (hin : ∀ n ∈ yieldSingles dir base ext b e, splitPath n ≠ splitPath out ∧ fs.get? (splitPath n) ≠ none) (rows : List ρ) (o : Except Err Unit)
    (h : Rows item 0 ((yieldSingles dir base ext b e).map fun n => fs.get? (splitPath n)) rows o) :
    runSteps item line head out fs dir base ext b e =
      WriteOp.steps fs ⟨splitPath out, byteStore.encode (joinLines head) :: rows.map fun r => byteStore.encode (line r ++ ['\n'])⟩ := by
  unfold runSteps
  simp only
  rw [rowSteps_eq item line (splitPath out) _ (fun n hn => (hin n hn).1) _ 0 rows o]
  · simp [WriteOp.steps]
  · have hsame : ((yieldSingles dir base ext b e).map fun n => ((WriteOp.steps fs ⟨splitPath out, [byteStore.encode (joinLines head)]⟩).foldl Step.run fs).get? (splitPath n)) =
        (yieldSingles dir base ext b e).map fun n => fs.get? (splitPath n) :=
      List.map_congr_left fun n hn => first_keeps fs hw _ _ (hin n hn).1 (hin n hn).2
    rw [hsame]
    exact h

/-- **C138, interrupted samples.** `sample_interfaces` and `sample_average_files` with an output that is none of the files read, interrupted after any number of steps and of bytes: the output is as
before, missing, or the first bytes of what the complete run writes; nothing else is changed or lost. -/
theorem C138_samples_killed (item : ℕ → Option Bytes → Item ρ) (line : ρ → Text) (head : List Text) (out : Text) (fs : FS Bytes) (hw : (fs.map Prod.fst).Nodup) (dir : Dir) (base ext : Text) (b : ℤ)
    (e : Option ℤ) (hin : ∀ n ∈ yieldSingles dir base ext b e, splitPath n ≠ splitPath out ∧ fs.get? (splitPath n) ≠ none) (k m : ℕ) :
    ∃ full, (run item line byteStore head (some out) fs dir base ext b e).1.get? (splitPath out) = some full ∧
      LeftBehind fs (cutShort fs (runSteps item line head out fs dir base ext b e) k m) (splitPath out) full := by
  obtain ⟨fs1, rows, o, h1, h2, h3⟩ := C123_saved item line byteStore byteStore_lawful head out fs dir base ext b e hin
  refine ⟨byteStore.encode (joinLines (head ++ rows.map line)), by rw [h1]; exact h3.1, ?_⟩
  rw [runSteps_eq item line head out fs hw dir base ext b e hin rows o h2]
  have := leftBehind_op fs ⟨splitPath out, byteStore.encode (joinLines head) :: rows.map fun r => byteStore.encode (line r ++ ['\n'])⟩ hw k m
  have hfull : (byteStore.encode (joinLines head) :: rows.map fun r => byteStore.encode (line r ++ ['\n'])).flatten = byteStore.encode (joinLines (head ++ rows.map line)) := by
    rw [List.flatten_cons, joinLines_append, encode_append, encode_lines (rows.map line), List.map_map]
    rfl
  simp only [hfull] at this
  exact this

theorem appendTo_step {fs : FS Bytes} {p : Path} (h : fs.get? p ≠ none) (t : Text) : appendTo byteStore p fs t = Step.run fs (.append p (byteStore.encode t)) := by
  obtain ⟨c, hc⟩ := Option.ne_none_iff_exists'.mp h
  unfold appendTo
  simp only [Step.run, hc, Option.elim_some]
  rfl

theorem step_some {fs : FS Bytes} {p : Path} (h : fs.get? p ≠ none) (c : Bytes) : (Step.run fs (.append p c)).get? p ≠ none := by
  obtain ⟨x, hx⟩ := Option.ne_none_iff_exists'.mp h
  simp only [Step.run, hx]
  rw [get?_put, if_pos rfl]
  simp

theorem rowSteps_run (item : ℕ → Option Bytes → Item ρ) (line : ρ → Text) (p : Path) (names : List Text) (fs : FS Bytes) (i : ℕ) (h : fs.get? p ≠ none) :
    (runFiles item line byteStore (some p) fs i names).1 = (rowSteps item line p fs i names).foldl Step.run fs := by
  induction names generalizing fs i with
  | nil => rfl
  | cons n names ih =>
    unfold runFiles rowSteps
    cases item i (fs.get? (splitPath n)) with
    | stop o => rfl
    | skip => exact ih fs (i + 1) h
    | row r =>
      simp only [Option.elim_some, List.foldl_cons]
      rw [appendTo_step h, ih _ (i + 1) (step_some h _)]

theorem first_run {fs : FS Bytes} {p : Path} {fs1 : FS Bytes} (h : preparePath fs p = .ok fs1) (c : Bytes) : (WriteOp.steps fs ⟨p, [c]⟩).foldl Step.run fs = fs1.put p c := by
  have := run_eq (op := ⟨p, [c]⟩) h
  simp only [List.flatten_cons, List.flatten_nil, List.append_nil] at this
  exact this

theorem cutShort_all (fs : FS Bytes) (steps : List Step) (k m : ℕ) (hk : steps.length ≤ k) : cutShort fs steps k m = steps.foldl Step.run fs := by
  unfold cutShort
  rw [List.getElem?_eq_none hk, List.take_of_length_le hk]

/-- **C138.** All steps together are the complete call. -/
theorem C138_samples_complete (item : ℕ → Option Bytes → Item ρ) (line : ρ → Text) (head : List Text) (out : Text) (fs : FS Bytes) (dir : Dir) (base ext : Text) (b : ℤ) (e : Option ℤ) (k m : ℕ)
    (hk : (runSteps item line head out fs dir base ext b e).length ≤ k) :
    cutShort fs (runSteps item line head out fs dir base ext b e) k m = (run item line byteStore head (some out) fs dir base ext b e).1 := by
  rw [cutShort_all _ _ _ _ hk]
  obtain ⟨fs1, h1, -⟩ := C06_prepare_path_safe fs (splitPath out)
  unfold runSteps SavedRuns.run
  simp only
  rw [h1, List.foldl_append, first_run h1]
  simp only
  rw [rowSteps_run]
  rw [get?_put, if_pos rfl]
  simp

/-- The files found in two listings with the same numbered files are the same. -/
theorem yieldSingles_congr {dir dir' : Dir} {base ext : Text} (h : ∀ n, fileName base ext n ∈ dir' ↔ fileName base ext n ∈ dir) (b : ℤ) (e : Option ℤ) :
    yieldSingles dir' base ext b e = yieldSingles dir base ext b e := by
  obtain ⟨k, -, h1, h2, h3⟩ := yieldSingles_spec dir base ext b e
  obtain ⟨k', -, g1, g2, g3⟩ := yieldSingles_spec dir' base ext b e
  have : k' = k := by
    rcases lt_trichotomy k' k with hlt | heq | hgt
    · exact absurd ⟨(h2 k' hlt).1, (h _).mpr (h2 k' hlt).2⟩ g3
    · exact heq
    · exact absurd ⟨(g2 k hgt).1, (h _).mp (g2 k hgt).2⟩ h3
  rw [h1, g1, this]

/-- After an interruption the inputs are as before and are found again. -/
theorem found_again {fs fs' : FS Bytes} {out : Path} {full : Bytes} (hl : LeftBehind fs fs' out full) {dir dir' : Dir} {base ext : Text} (hdir : Lists dir fs base ext)
    (hdir' : Lists dir' fs' base ext) (hsep : ∀ n, splitPath (fileName base ext n) ≠ out)
    (hfree : ∀ n, fs.get? (splitPath (fileName base ext n)) = none → fs'.get? (splitPath (fileName base ext n)) = none) (b : ℤ) (e : Option ℤ) :
    yieldSingles dir' base ext b e = yieldSingles dir base ext b e ∧
    ∀ n ∈ yieldSingles dir base ext b e, splitPath n ≠ out ∧ fs.get? (splitPath n) ≠ none ∧ fs'.get? (splitPath n) = fs.get? (splitPath n) := by
  refine ⟨yieldSingles_congr (fun n => ?_) b e, fun n hn => ?_⟩
  · rw [hdir' n, hdir n]
    constructor
    · intro h h0
      exact h (hfree n h0)
    · intro h
      rw [hl.others _ (hsep n) h]
      exact h
  · obtain ⟨k, -, h1, h2, -⟩ := yieldSingles_spec dir base ext b e
    rw [h1] at hn
    obtain ⟨i, hi, rfl⟩ := List.mem_map.mp hn
    have he := (hdir _).mp (h2 i (List.mem_range.mp hi)).2
    exact ⟨hsep _, he, hl.others _ (hsep _) he⟩

/-- **C138, again after an interruption.** The same call in a new process, with the output not a numbered file of the series: the rows, the end of the call and the content of the output are those of
a run that was never interrupted, and nothing that existed is lost. -/
theorem C138_samples_again (item : ℕ → Option Bytes → Item ρ) (line : ρ → Text) (head : List Text) (out : Text) (fs : FS Bytes) (hw : (fs.map Prod.fst).Nodup) (dir : Dir) (base ext : Text)
    (hslash : '/' ∉ ext) (hhash : ext.getLast? ≠ some '#') (b : ℤ) (e : Option ℤ) (hdir : Lists dir fs base ext) (hsep : ∀ n, splitPath (fileName base ext n) ≠ splitPath out) (k m : ℕ)
    (fs' : FS Bytes) (hfs' : fs' = cutShort fs (runSteps item line head out fs dir base ext b e) k m) (dir' : Dir) (hdir' : Lists dir' fs' base ext) :
    (run item line byteStore head (some out) fs' dir' base ext b e).2 = (run item line byteStore head (some out) fs dir base ext b e).2 ∧
    (run item line byteStore head (some out) fs' dir' base ext b e).1.get? (splitPath out) = (run item line byteStore head (some out) fs dir base ext b e).1.get? (splitPath out) ∧
    (∀ q, q ≠ splitPath out → fs.get? q ≠ none → (run item line byteStore head (some out) fs' dir' base ext b e).1.get? q = fs.get? q) ∧
    ∃ extra : List Bytes, ((run item line byteStore head (some out) fs' dir' base ext b e).1.map Prod.snd).Perm (extra ++ fs.map Prod.snd) := by
  have hin : ∀ n ∈ yieldSingles dir base ext b e, splitPath n ≠ splitPath out ∧ fs.get? (splitPath n) ≠ none := by
    intro n hn
    obtain ⟨k, -, h1, h2, -⟩ := yieldSingles_spec dir base ext b e
    rw [h1] at hn
    obtain ⟨i, hi, rfl⟩ := List.mem_map.mp hn
    exact ⟨hsep _, (hdir _).mp (h2 i (List.mem_range.mp hi)).2⟩
  obtain ⟨fs1, rows, o, h1, h2, h3⟩ := C123_saved item line byteStore byteStore_lawful head out fs dir base ext b e hin
  have hst := runSteps_eq item line head out fs hw dir base ext b e hin rows o h2
  rw [hst, cutShort_op] at hfs'
  have hl := leftBehind_op fs ⟨splitPath out, byteStore.encode (joinLines head) :: rows.map fun r => byteStore.encode (line r ++ ['\n'])⟩ hw k m
  rw [cutShort_op, ← hfs'] at hl
  obtain ⟨hw', -, -, hkeep⟩ := crash_props fs ⟨splitPath out, byteStore.encode (joinLines head) :: rows.map fun r => byteStore.encode (line r ++ ['\n'])⟩ k m hw
  rw [← hfs'] at hw' hkeep
  obtain ⟨f1, f2⟩ := found_again hl hdir hdir' hsep (fun n h0 => by
    rw [hkeep _ (hsep n) (.inr fun i => not_backup _ _ _ hslash hhash _ i)]
    exact h0) b e
  have hin' : ∀ n ∈ yieldSingles dir' base ext b e, splitPath n ≠ splitPath out ∧ fs'.get? (splitPath n) ≠ none := by
    rw [f1]
    intro n hn
    obtain ⟨g1, g2, g3⟩ := f2 n hn
    exact ⟨g1, by rw [g3]; exact g2⟩
  obtain ⟨fs2, rows', o', r1, r2, r3⟩ := C123_saved item line byteStore byteStore_lawful head out fs' dir' base ext b e hin'
  have hsame : ((yieldSingles dir' base ext b e).map fun n => fs'.get? (splitPath n)) = (yieldSingles dir base ext b e).map fun n => fs.get? (splitPath n) := by
    rw [f1]
    exact List.map_congr_left fun n hn => (f2 n hn).2.2
  rw [hsame] at r2
  obtain ⟨rfl, rfl⟩ := Rows.unique h2 r2
  have hst' := runSteps_eq item line head out fs' hw' dir' base ext b e hin' rows o (by rw [hsame]; exact h2)
  have hcomp := C138_samples_complete item line head out fs' dir' base ext b e _ 0 le_rfl
  rw [cutShort_all _ _ _ _ le_rfl, hst'] at hcomp
  obtain ⟨-, p2, -, -⟩ := run_props fs' ⟨splitPath out, byteStore.encode (joinLines head) :: rows.map fun r => byteStore.encode (line r ++ ['\n'])⟩ hw'
  have hcomp' : WriteOp.run fs' ⟨splitPath out, byteStore.encode (joinLines head) :: rows.map fun r => byteStore.encode (line r ++ ['\n'])⟩ =
      (run item line byteStore head (some out) fs' dir' base ext b e).1 := hcomp
  rw [hcomp'] at p2
  refine ⟨by rw [h1, r1], by rw [h1, r1, h3.1, r3.1], fun q hq he => ?_, ?_⟩
  · rw [r1]
    show fs2.get? q = _
    rw [r3.same hq (by rw [hl.others q hq he]; exact he), hl.others q hq he]
  · obtain ⟨extra, -, -, hp⟩ := hl.contents
    exact ⟨_ :: extra, p2.trans (by rw [List.cons_append]; exact hp.cons _)⟩

/-! ## `collect` of spreading data -/

theorem lineSteps_run (p : Path) : ∀ (ls : List Line) (fs : FS Bytes), fs.get? p ≠ none →
    ls.foldl (fun fs l => appendTo byteStore p fs (joinLines (lineTexts l))) fs = (ls.map fun l => Step.append p (byteStore.encode (joinLines (lineTexts l)))).foldl Step.run fs ∧
    ((ls.map fun l => Step.append p (byteStore.encode (joinLines (lineTexts l)))).foldl Step.run fs).get? p ≠ none
  | [], fs, h => ⟨rfl, h⟩
  | l :: ls, fs, h => by
    obtain ⟨h1, h2⟩ := lineSteps_run p ls _ (step_some h (byteStore.encode (joinLines (lineTexts l))))
    rw [List.foldl_cons, List.map_cons, List.foldl_cons, appendTo_step h]
    exact ⟨h1, h2⟩

theorem curveSteps_run (read : Bytes → Except Err Flow) (p : Path) (o : CollectOpts) (names : List Text) (fs : FS Bytes) (s : State) (i : ℕ) (h : fs.get? p ≠ none) :
    (collectLoop read byteStore (some p) o fs s i names).fs = (curveSteps read p o fs s i names).foldl Step.run fs := by
  induction names generalizing fs s i with
  | nil => rfl
  | cons n names ih =>
    unfold collectLoop curveSteps
    cases fileFrame read o fs n with
    | error e => rfl
    | ok f =>
      simp only [Option.isSome_some]
      obtain ⟨h1, h2⟩ := lineSteps_run p ((step o.dt true s i f).lines.drop s.lines.length) fs h
      rw [List.foldl_append]
      have h3 : afterStep byteStore (some p) fs s (step o.dt true s i f) = (lineSteps p s (step o.dt true s i f)).foldl Step.run fs := h1
      rw [h3]
      exact ih _ _ (i + 1) h2

/-- **C138.** All steps together are the complete call of `collect`. -/
theorem C138_collect_complete (read : Bytes → Except Err Flow) (h : Header) (out : Text) (o : CollectOpts) (flag : Bool) (fs : FS Bytes) (dir : Dir) (base ext : Text) (b : ℤ) (e : Option ℤ) (k m : ℕ)
    (hk : (collectSteps read h out o flag fs dir base ext b e).length ≤ k) :
    cutShort fs (collectSteps read h out o flag fs dir base ext b e) k m = (collectFiles read byteStore h (some out) o flag fs dir base ext b e).fs := by
  rw [cutShort_all _ _ _ _ hk]
  obtain ⟨fs1, h1, -⟩ := C06_prepare_path_safe fs (splitPath out)
  have hwh : writeHeader byteStore h fs ((some out).map splitPath) = .ok (fs1.put (splitPath out) (byteStore.encode (joinLines (headerLines h)))) := by
    unfold writeHeader
    simp only [Option.map_some]
    rw [h1]
    rfl
  unfold collectSteps SpreadingFiles.collectFiles
  rw [hwh]
  simp only
  rw [List.foldl_append, first_run h1]
  simp only [Option.map_some]
  rw [curveSteps_run]
  rw [get?_put, if_pos rfl]
  simp

/-- The lines are appended to the header, like further pieces of one write. -/
theorem curveSteps_eq (read : Bytes → Except Err Flow) (out : Path) (o : CollectOpts) (names : List Text) (hn : ∀ n ∈ names, splitPath n ≠ out) (fs : FS Bytes) (s : State) (i : ℕ)
    (frames : List Frame) (oc : Except Err Unit) (h : Reached read o fs names frames oc) :
    ∃ ls, (loop o.dt true s i frames).lines = s.lines ++ ls ∧ curveSteps read out o fs s i names = ls.map fun l => .append out (byteStore.encode (joinLines (lineTexts l))) := by
  induction names generalizing fs s i frames with
  | nil =>
    obtain ⟨k, hk, hf, -⟩ := h
    rw [List.take_nil] at hf
    cases hf
    exact ⟨[], by simp [loop], rfl⟩
  | cons n names ih =>
    obtain ⟨k, hk, hf, hend⟩ := h
    cases k with
    | zero =>
      rw [List.take_zero] at hf
      cases hf
      rcases hend with ⟨h0, -⟩ | ⟨m, er, h1, h2, -⟩
      · simp at h0
      · simp only [List.getElem?_cons_zero, Option.some.injEq] at h1
        subst h1
        refine ⟨[], by simp [loop], ?_⟩
        unfold curveSteps
        rw [h2]
        rfl
    | succ k =>
      rw [List.take_succ_cons] at hf
      cases hf with
      | @cons _ f _ frames h1 h2 =>
        obtain ⟨ls1, e1⟩ := step_lines o.dt true s i f
        have hl1 : lineSteps out s (step o.dt true s i f) = ls1.map fun l => Step.append out (byteStore.encode (joinLines (lineTexts l))) := by
          unfold lineSteps
          rw [← e1]
          simp
        have hkeep : ∀ (ls : List Line) (fs : FS Bytes) (q : Path), q ≠ out → ((ls.map fun l => Step.append out (byteStore.encode (joinLines (lineTexts l)))).foldl Step.run fs).get? q = fs.get? q := by
          intro ls
          induction ls with
          | nil => intro fs q _; rfl
          | cons l ls ih =>
            intro fs q hq
            rw [List.map_cons, List.foldl_cons, ih _ q hq]
            simp only [Step.run]
            cases fs.get? out with
            | none => rfl
            | some c => simp only; rw [get?_put, if_neg hq]
        have hR : Reached read o ((lineSteps out s (step o.dt true s i f)).foldl Step.run fs) names frames oc := by
          refine Reached.congr (fs' := fs) (fun m hm => ?_) ⟨k, by simpa using hk, h2, ?_⟩
          · rw [hl1, hkeep _ _ _ (hn m (by simp [hm]))]
          · rcases hend with ⟨h0, h0'⟩ | ⟨m, er, g1, g2, g3⟩
            · exact .inl ⟨by simpa using h0, h0'⟩
            · exact .inr ⟨m, er, by simpa using g1, g2, g3⟩
        obtain ⟨ls2, e2, e3⟩ := ih (fun m hm => hn m (by simp [hm])) _ (step o.dt true s i f) (i + 1) frames hR
        refine ⟨ls1 ++ ls2, ?_, ?_⟩
        · unfold loop
          rw [e2, ← e1, List.append_assoc]
        · unfold curveSteps
          rw [h1]
          simp only
          rw [e3, hl1, List.map_append]

/-- What a run over files reaches is determined by the files. -/
theorem reached_unique {read : Bytes → Except Err Flow} {o : CollectOpts} {fs : FS Bytes} {names : List Text} {f g : List Frame} {a c : Except Err Unit} (h : Reached read o fs names f a)
    (h' : Reached read o fs names g c) : f = g ∧ a = c := by
  induction names generalizing f g with
  | nil =>
    obtain ⟨k, hk, hf, he⟩ := h
    obtain ⟨k', hk', hf', he'⟩ := h'
    rw [List.take_nil] at hf hf'
    cases hf
    cases hf'
    rcases he with ⟨-, rfl⟩ | ⟨n, e, h1, -⟩
    · rcases he' with ⟨-, rfl⟩ | ⟨n, e, h1, -⟩
      · exact ⟨rfl, rfl⟩
      · simp at h1
    · simp at h1
  | cons n names ih =>
    obtain ⟨k, hk, hf, he⟩ := h
    obtain ⟨k', hk', hf', he'⟩ := h'
    cases k with
    | zero =>
      rw [List.take_zero] at hf
      cases hf
      rcases he with ⟨h0, -⟩ | ⟨m, er, h1, h2, rfl⟩
      · simp at h0
      · simp only [List.getElem?_cons_zero, Option.some.injEq] at h1
        subst h1
        cases k' with
        | zero =>
          rw [List.take_zero] at hf'
          cases hf'
          rcases he' with ⟨h0, -⟩ | ⟨m, er', h1, h2', rfl⟩
          · simp at h0
          · simp only [List.getElem?_cons_zero, Option.some.injEq] at h1
            subst h1
            rw [h2] at h2'
            cases h2'
            exact ⟨rfl, rfl⟩
        | succ k' =>
          rw [List.take_succ_cons] at hf'
          cases hf' with
          | cons g1 g2 => rw [h2] at g1; cases g1
    | succ k =>
      rw [List.take_succ_cons] at hf
      cases hf with
      | @cons _ x _ frames h1 h2 =>
        cases k' with
        | zero =>
          rcases he' with ⟨h0, -⟩ | ⟨m, er', g1, g2, rfl⟩
          · simp at h0
          · simp only [List.getElem?_cons_zero, Option.some.injEq] at g1
            subst g1
            rw [h1] at g2
            cases g2
        | succ k' =>
          rw [List.take_succ_cons] at hf'
          cases hf' with
          | @cons _ y _ frames' g1 g2 =>
            rw [h1] at g1
            cases g1
            obtain ⟨i1, i2⟩ := ih (f := frames) (g := frames') ⟨k, by simpa using hk, h2, by simpa using he⟩ ⟨k', by simpa using hk', g2, by simpa using he'⟩
            exact ⟨by rw [i1], i2⟩

theorem encode_flatMap : ∀ ls : List Line, byteStore.encode (joinLines (ls.flatMap lineTexts)) = (ls.map fun l => byteStore.encode (joinLines (lineTexts l))).flatten
  | [] => rfl
  | l :: ls => by rw [List.flatMap_cons, joinLines_append, encode_append, encode_flatMap ls, List.map_cons, List.flatten_cons]

/-- The steps of `collect` are those of one write: header and lines. -/
theorem collectSteps_eq (read : Bytes → Except Err Flow) (h : Header) (out : Text) (o : CollectOpts) (flag : Bool) (fs : FS Bytes) (hw : (fs.map Prod.fst).Nodup) (dir : Dir) (base ext : Text) (b : ℤ)
    (e : Option ℤ) (hin : ∀ n ∈ yieldSingles dir base ext b e, splitPath n ≠ splitPath out ∧ fs.get? (splitPath n) ≠ none) (frames : List Frame) (oc : Except Err Unit)
    (hr : Reached read o fs (yieldSingles dir base ext b e) frames oc) :
    ∃ chunks : List Bytes, collectSteps read h out o flag fs dir base ext b e = WriteOp.steps fs ⟨splitPath out, chunks⟩ ∧
      chunks.flatten = byteStore.encode (savedFile h (collect o.dt o.t0 true flag frames).lines) := by
  unfold collectSteps
  simp only
  obtain ⟨ls, h1, h2⟩ := curveSteps_eq read (splitPath out) o (yieldSingles dir base ext b e) (fun n hn => (hin n hn).1)
    ((WriteOp.steps fs ⟨splitPath out, [byteStore.encode (joinLines (headerLines h))]⟩).foldl Step.run fs) ⟨initPeriodicInfo, o.t0, [], flag, []⟩ 0 frames oc
    (hr.congr fun n hn => (first_keeps fs hw _ _ (hin n hn).1 (hin n hn).2).symm)
  rw [h2]
  refine ⟨byteStore.encode (joinLines (headerLines h)) :: ls.map fun l => byteStore.encode (joinLines (lineTexts l)), by simp [WriteOp.steps], ?_⟩
  unfold collect savedFile
  rw [h1, List.nil_append, joinLines_append, encode_append, List.flatten_cons, encode_flatMap]

/-- **C138, an interrupted `collect`.** With an output that is none of the files read, interrupted after any number of steps and of bytes: the output is as before, missing, or the first bytes of what
the complete run writes; nothing else is changed or lost. -/
theorem C138_collect_killed (read : Bytes → Except Err Flow) (h : Header) (out : Text) (o : CollectOpts) (flag : Bool) (fs : FS Bytes) (hw : (fs.map Prod.fst).Nodup) (dir : Dir) (base ext : Text)
    (b : ℤ) (e : Option ℤ) (hin : ∀ n ∈ yieldSingles dir base ext b e, splitPath n ≠ splitPath out ∧ fs.get? (splitPath n) ≠ none) (k m : ℕ) :
    ∃ full, (collectFiles read byteStore h (some out) o flag fs dir base ext b e).fs.get? (splitPath out) = some full ∧
      LeftBehind fs (cutShort fs (collectSteps read h out o flag fs dir base ext b e) k m) (splitPath out) full := by
  obtain ⟨frames, h1, -, -, h4, -⟩ := C121_saved read byteStore byteStore_lawful h out o flag fs dir base ext b e hin
  obtain ⟨chunks, c1, c2⟩ := collectSteps_eq read h out o flag fs hw dir base ext b e hin frames _ h1
  refine ⟨_, h4, ?_⟩
  rw [c1, ← c2]
  exact leftBehind_op fs ⟨splitPath out, chunks⟩ hw k m

/-- **C138, `collect` again after an interruption.** The same call in a new process, with the output not a numbered file of the series: the curve, the end of the call and the content of the output are
those of a run that was never interrupted, and nothing that existed is lost. -/
theorem C138_collect_again (read : Bytes → Except Err Flow) (h : Header) (out : Text) (o : CollectOpts) (flag : Bool) (fs : FS Bytes) (hw : (fs.map Prod.fst).Nodup) (dir : Dir) (base ext : Text)
    (hslash : '/' ∉ ext) (hhash : ext.getLast? ≠ some '#') (b : ℤ) (e : Option ℤ) (hdir : Lists dir fs base ext) (hsep : ∀ n, splitPath (fileName base ext n) ≠ splitPath out) (k m : ℕ)
    (fs' : FS Bytes) (hfs' : fs' = cutShort fs (collectSteps read h out o flag fs dir base ext b e) k m) (dir' : Dir) (hdir' : Lists dir' fs' base ext)
    (r r' : Run Bytes) (hr : r = collectFiles read byteStore h (some out) o flag fs dir base ext b e) (hr' : r' = collectFiles read byteStore h (some out) o flag fs' dir' base ext b e) :
    r'.rows = r.rows ∧ r'.outcome = r.outcome ∧ r'.fs.get? (splitPath out) = r.fs.get? (splitPath out) ∧ (∀ q, q ≠ splitPath out → fs.get? q ≠ none → r'.fs.get? q = fs.get? q) ∧
    ∃ extra : List Bytes, (r'.fs.map Prod.snd).Perm (extra ++ fs.map Prod.snd) := by
  have hin : ∀ n ∈ yieldSingles dir base ext b e, splitPath n ≠ splitPath out ∧ fs.get? (splitPath n) ≠ none := by
    intro n hn
    obtain ⟨k, -, h1, h2, -⟩ := yieldSingles_spec dir base ext b e
    rw [h1] at hn
    obtain ⟨i, hi, rfl⟩ := List.mem_map.mp hn
    exact ⟨hsep _, (hdir _).mp (h2 i (List.mem_range.mp hi)).2⟩
  obtain ⟨frames, h1, h2, -, h4, -⟩ := C121_saved read byteStore byteStore_lawful h out o flag fs dir base ext b e hin
  obtain ⟨chunks, c1, c2⟩ := collectSteps_eq read h out o flag fs hw dir base ext b e hin frames _ h1
  rw [c1, cutShort_op] at hfs'
  have hl := leftBehind_op fs ⟨splitPath out, chunks⟩ hw k m
  rw [cutShort_op, ← hfs'] at hl
  obtain ⟨hw', -, -, hkeep⟩ := crash_props fs ⟨splitPath out, chunks⟩ k m hw
  rw [← hfs'] at hw' hkeep
  obtain ⟨f1, f2⟩ := found_again hl hdir hdir' hsep (fun n h0 => by
    rw [hkeep _ (hsep n) (.inr fun i => not_backup _ _ _ hslash hhash _ i)]
    exact h0) b e
  have hin' : ∀ n ∈ yieldSingles dir' base ext b e, splitPath n ≠ splitPath out ∧ fs'.get? (splitPath n) ≠ none := by
    rw [f1]
    intro n hn
    obtain ⟨g1, g2, g3⟩ := f2 n hn
    exact ⟨g1, by rw [g3]; exact g2⟩
  obtain ⟨frames', r1, r2, -, r4, -⟩ := C121_saved read byteStore byteStore_lawful h out o flag fs' dir' base ext b e hin'
  have r1' := r1
  rw [f1] at r1'
  obtain ⟨rfl, u2⟩ := reached_unique h1 (r1'.congr fun n hn => (f2 n hn).2.2)
  obtain ⟨chunks', d1, d2⟩ := collectSteps_eq read h out o flag fs' hw' dir' base ext b e hin' frames _ r1
  have hcomp := C138_collect_complete read h out o flag fs' dir' base ext b e _ 0 le_rfl
  rw [cutShort_all _ _ _ _ le_rfl, d1] at hcomp
  obtain ⟨-, p2, -, p4⟩ := run_props fs' ⟨splitPath out, chunks'⟩ hw'
  have hcomp' : WriteOp.run fs' ⟨splitPath out, chunks'⟩ = (collectFiles read byteStore h (some out) o flag fs' dir' base ext b e).fs := hcomp
  rw [hcomp', ← hr'] at p2 p4
  rw [← hr'] at r2 r4 u2
  rw [← hr] at h2 h4 u2
  refine ⟨by rw [r2, h2], u2.symm, by rw [r4, h4], fun q hq he => ?_, ?_⟩
  · rw [p4 q hq (.inl (by rw [hl.others q hq he]; exact he)), hl.others q hq he]
  · obtain ⟨extra, -, -, hp⟩ := hl.contents
    exact ⟨_ :: extra, p2.trans (by rw [List.cons_append]; exact hp.cons _)⟩

/-! ## Examples -/

/-- The series of `SpreadingMaps`, with an old output, meets the hypotheses of the theorems above. -/
example : (SpreadingFiles.exFiles.map Prod.fst).Nodup ∧ Lists SpreadingFiles.exDir SpreadingFiles.exFiles "a".toList [] ∧
    (∀ n, splitPath (fileName "a".toList [] n) ≠ splitPath "out".toList) ∧
    ∀ n ∈ yieldSingles SpreadingFiles.exDir "a".toList [] 1 none, splitPath n ≠ splitPath "out".toList ∧ SpreadingFiles.exFiles.get? (splitPath n) ≠ none := by
  have hsp : ∀ n : ℤ, splitPath (fileName "a".toList [] n) = (".".toList, "a".toList ++ fmt05 n) := by
    intro n
    unfold Files.fileName
    rw [List.append_nil, splitPath_append _ _ (fmt05_noslash n)]
    rfl
  refine ⟨by decide +kernel, fun n => ?_, fun n h => ?_, by decide +kernel⟩
  · rw [hsp, ← exists?_iff, exists?_iff_mem]
    have h : SpreadingFiles.exFiles.map Prod.fst = SpreadingFiles.exDir.map fun n => (".".toList, n) := by decide +kernel
    rw [h, List.mem_map]
    have hn : fileName "a".toList [] n = "a".toList ++ fmt05 n := by unfold Files.fileName; rw [List.append_nil]
    rw [hn]
    constructor
    · intro h; exact ⟨_, h, rfl⟩
    · rintro ⟨x, hx, he⟩
      rw [Prod.mk.injEq] at he
      rwa [← he.2]
  · rw [hsp] at h
    have h2 := congrArg (fun p : Path => p.2.head?) h
    simp only at h2
    have h3 : (splitPath "out".toList).2.head? = some 'o' := by decide +kernel
    rw [h3] at h2
    simp at h2

/-- Interrupted in the header: the old output has been moved away and three bytes of the new one are written; the same call afterwards gives the same curve. -/
example : let fs' := cutShort SpreadingFiles.exFiles (collectSteps (readFlow ieee32) exHeader "out".toList exOpts false SpreadingFiles.exFiles SpreadingFiles.exDir "a".toList [] 1 none) 2 3
    fs'.get? (splitPath "#out.1#".toList) = some [7] ∧ (fs'.get? (splitPath "out".toList)).map List.length = some 3 ∧
    (collectFiles (readFlow ieee32) byteStore exHeader (some "out".toList) exOpts false fs' SpreadingFiles.exDir "a".toList [] 1 none).rows =
      [⟨0, 1 / 4, 5 / 4, 7 / 4⟩, ⟨2, 1 / 2, 7 / 4, 11 / 4⟩] ∧
    (collectFiles (readFlow ieee32) byteStore exHeader (some "out".toList) exOpts false fs' SpreadingFiles.exDir "a".toList [] 1 none).fs.get? (splitPath "#out.1#".toList) = some [7] := by
  refine ⟨?_, ?_, ?_, ?_⟩ <;> decide +kernel

/-- Interrupted when one point of two has been written. -/
example : (collectSteps (readFlow ieee32) exHeader "out".toList exOpts false SpreadingFiles.exFiles SpreadingFiles.exDir "a".toList [] 1 none).length = 6 := by decide +kernel

/-- A series of samples, with a file that is skipped and one that is refused. -/
def exItem (i : ℕ) (c : Option Bytes) : Item (ℕ × UInt8) :=
  match c with
  | some [x] => if x = 6 then .skip else .row (i, x)
  | _ => .stop (.error .osError)

def exSamples : FS Bytes := [(splitPath "a00001".toList, [2]), (splitPath "a00002".toList, [6]), (splitPath "a00003".toList, [10]), (splitPath "a00004".toList, [20]), (splitPath "out".toList, [7])]

/-- Interrupted while the second row is written, the output ends in the middle of that row; the same call afterwards writes all of it. -/
example : let fs' := cutShort exSamples (runSteps exItem (fun r => List.replicate (r.1 + 1) 'x') ["# h".toList] "out".toList exSamples SpreadingFiles.exDir "a".toList [] 1 none) 4 2
    fs'.get? (splitPath "out".toList) = some (byteStore.encode "# h\nx\nxx".toList) ∧ fs'.get? (splitPath "#out.1#".toList) = some [7] ∧
    (run exItem (fun r => List.replicate (r.1 + 1) 'x') byteStore ["# h".toList] (some "out".toList) fs' SpreadingFiles.exDir "a".toList [] 1 none).1.get? (splitPath "out".toList) =
      some (byteStore.encode "# h\nx\nxxx\nxxxx\n".toList) ∧
    (run exItem (fun r => List.replicate (r.1 + 1) 'x') byteStore ["# h".toList] (some "out".toList) fs' SpreadingFiles.exDir "a".toList [] 1 none).1.get? (splitPath "#out.2#".toList) =
      some (byteStore.encode "# h\nx\nxx".toList) := by
  refine ⟨?_, ?_, ?_, ?_⟩ <;> decide +kernel

end Strata.KilledSeries
