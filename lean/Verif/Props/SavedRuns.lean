import Verif.Model.SavedRuns
import Verif.Props.SpreadingFiles
import Verif.Props.InterfaceText
import Verif.Props.SampleSeries
/-!
# Samples of a series in one output file: C123, C124
-/
namespace Strata.SavedRuns
open Strata Strata.Flow Strata.Files Strata.SpreadingText Strata.SpreadingFiles Strata.InterfaceFiles Strata.InterfaceText

variable {γ ρ : Type}

/-- The rows of the files with the contents `cs`, and how the series ends: at the first file that ends the call. -/
inductive Rows (item : ℕ → Option γ → Item ρ) : ℕ → List (Option γ) → List ρ → Except Err Unit → Prop
  | done (i) : Rows item i [] [] (.ok ())
  | row {i c cs r rs o} : item i c = .row r → Rows item (i + 1) cs rs o → Rows item i (c :: cs) (r :: rs) o
  | skip {i c cs rs o} : item i c = .skip → Rows item (i + 1) cs rs o → Rows item i (c :: cs) rs o
  | stop {i c cs o} : item i c = .stop o → Rows item i (c :: cs) [] o

/-- The loop with an output file that is not read. -/
theorem runFiles_saved (item : ℕ → Option γ → Item ρ) (line : ρ → Text) (st : Store γ) (hl : st.Lawful) (p : Path) (names : List Text) (fs : FS γ) (i : ℕ) (t : Text)
    (hn : ∀ n ∈ names, splitPath n ≠ p) (hp : fs.get? p = some (st.encode t)) :
    Rows item i (names.map fun n => fs.get? (splitPath n)) (runFiles item line st (some p) fs i names).2.1 (runFiles item line st (some p) fs i names).2.2 ∧
    (runFiles item line st (some p) fs i names).1.get? p = some (st.encode (t ++ joinLines ((runFiles item line st (some p) fs i names).2.1.map line))) ∧
    ∀ q, q ≠ p → (runFiles item line st (some p) fs i names).1.get? q = fs.get? q := by
  induction names generalizing fs i t with
  | nil => exact ⟨.done i, by simpa [joinLines, runFiles] using hp, fun q _ => rfl⟩
  | cons n names ih =>
    unfold runFiles
    rw [List.map_cons]
    cases hi : item i (fs.get? (splitPath n)) with
    | stop o => exact ⟨.stop hi, by simpa [joinLines] using hp, fun q _ => rfl⟩
    | skip =>
      obtain ⟨h1, h2, h3⟩ := ih fs (i + 1) t (fun m hm => hn m (by simp [hm])) hp
      exact ⟨.skip hi h1, h2, h3⟩
    | row r =>
      simp only [Option.elim_some]
      have hg : ∀ q, (appendTo st p fs (line r ++ ['\n'])).get? q = if q = p then some (st.encode (t ++ (line r ++ ['\n']))) else fs.get? q := by
        intro q
        unfold appendTo
        rw [get?_put, hp, Option.elim_some, hl]
      obtain ⟨h1, h2, h3⟩ := ih (appendTo st p fs (line r ++ ['\n'])) (i + 1) (t ++ (line r ++ ['\n'])) (fun m hm => hn m (by simp [hm])) (by rw [hg, if_pos rfl])
      refine ⟨.row hi ?_, ?_, fun q hq => ?_⟩
      · have hsame : (names.map fun m => (appendTo st p fs (line r ++ ['\n'])).get? (splitPath m)) = names.map fun m => fs.get? (splitPath m) := by
          refine List.map_congr_left fun m hm => ?_
          rw [hg, if_neg (hn m (by simp [hm]))]
        rw [← hsame]
        exact h1
      · rw [h2]
        simp [joinLines]
      · rw [h3 q hq, hg, if_neg hq]

theorem runFiles_plain (item : ℕ → Option γ → Item ρ) (line : ρ → Text) (st : Store γ) (names : List Text) (fs : FS γ) (i : ℕ) :
    Rows item i (names.map fun n => fs.get? (splitPath n)) (runFiles item line st none fs i names).2.1 (runFiles item line st none fs i names).2.2 ∧
    (runFiles item line st none fs i names).1 = fs := by
  induction names generalizing i with
  | nil => exact ⟨.done i, rfl⟩
  | cons n names ih =>
    unfold runFiles
    rw [List.map_cons]
    obtain ⟨h1, h2⟩ := ih (i + 1)
    cases hi : item i (fs.get? (splitPath n)) with
    | stop o => exact ⟨.stop hi, rfl⟩
    | skip => exact ⟨.skip hi h1, h2⟩
    | row r =>
      simp only [Option.elim_none]
      exact ⟨.row hi h1, h2⟩

/-- A file is written to `p` in `fs`, giving `fs'`, without losing anything: the old content, if any, is found under a free backup name, and everything else is unchanged. -/
def WrittenSafely (fs fs' : FS γ) (p : Path) (content : γ) : Prop :=
  fs'.get? p = some content ∧
  ((fs.get? p = none ∧ ∀ q, q ≠ p → fs'.get? q = fs.get? q) ∨
    ∃ c k, fs.get? p = some c ∧ 1 ≤ k ∧ fs.get? (backupPath p k) = none ∧ fs'.get? (backupPath p k) = some c ∧ ∀ q, q ≠ p → q ≠ backupPath p k → fs'.get? q = fs.get? q)

/-- The prepared path and the content put there. -/
theorem prepared (fs : FS γ) (p : Path) (content : γ) : ∃ fs', preparePath fs p = .ok fs' ∧ WrittenSafely fs (fs'.put p content) p content := by
  obtain ⟨fs', h1, h2, h3⟩ := C06_prepare_path_safe fs p
  refine ⟨fs', h1, by rw [get?_put, if_pos rfl], ?_⟩
  rcases h3 with ⟨hn, rfl⟩ | ⟨c, k, hc, hk, -, -, hfree, hb, hrest⟩
  · exact .inl ⟨hn, fun q hq => by rw [get?_put, if_neg hq]⟩
  · refine .inr ⟨c, k, hc, hk, hfree, ?_, fun q hq hq' => ?_⟩
    · rw [get?_put, if_neg (backupPath_ne _ _), hb]
    · rw [get?_put, if_neg hq, hrest q hq hq']

/-- Other content written afterwards to the same path. -/
theorem WrittenSafely.later {fs fs' fs'' : FS γ} {p : Path} {c c' : γ} (h : WrittenSafely fs fs' p c) (h1 : fs''.get? p = some c') (h2 : ∀ q, q ≠ p → fs''.get? q = fs'.get? q) :
    WrittenSafely fs fs'' p c' := by
  refine ⟨h1, ?_⟩
  rcases h.2 with ⟨hn, hr⟩ | ⟨c, k, hc, hk, hfree, hb, hrest⟩
  · exact .inl ⟨hn, fun q hq => by rw [h2 q hq, hr q hq]⟩
  · exact .inr ⟨c, k, hc, hk, hfree, by rw [h2 _ (backupPath_ne _ _), hb], fun q hq hq' => by rw [h2 q hq, hrest q hq hq']⟩

/-- Files that existed are unchanged. -/
theorem WrittenSafely.same {fs fs' : FS γ} {p : Path} {c : γ} (h : WrittenSafely fs fs' p c) {q : Path} (hq : q ≠ p) (he : fs.get? q ≠ none) : fs'.get? q = fs.get? q := by
  rcases h.2 with ⟨-, hr⟩ | ⟨c, k, hc, hk, hfree, hb, hrest⟩
  · exact hr q hq
  · refine hrest q hq ?_
    rintro rfl
    exact he hfree

/-- **C123.** Sampling a series of files with an output that is none of them: the rows returned are those of the files in order up to the first one that ends the call, and the output is then
the header and these rows, however the call ends; an old output is kept under a backup name and nothing else is changed. -/
theorem C123_saved (item : ℕ → Option γ → Item ρ) (line : ρ → Text) (st : Store γ) (hl : st.Lawful) (head : List Text) (out : Text) (fs : FS γ) (dir : Dir) (base ext : Text) (b : ℤ)
    (e : Option ℤ) (hin : ∀ n ∈ yieldSingles dir base ext b e, splitPath n ≠ splitPath out ∧ fs.get? (splitPath n) ≠ none) :
    ∃ fs' rows outcome, run item line st head (some out) fs dir base ext b e = (fs', rows, outcome) ∧
      Rows item 0 ((yieldSingles dir base ext b e).map fun n => fs.get? (splitPath n)) rows outcome ∧
      WrittenSafely fs fs' (splitPath out) (st.encode (joinLines (head ++ rows.map line))) := by
  obtain ⟨fs', h1, h2⟩ := prepared fs (splitPath out) (st.encode (joinLines head))
  have hr : run item line st head (some out) fs dir base ext b e =
      runFiles item line st (some (splitPath out)) (fs'.put (splitPath out) (st.encode (joinLines head))) 0 (yieldSingles dir base ext b e) := by
    unfold run
    simp only
    rw [h1]
  obtain ⟨a1, a2, a3⟩ := runFiles_saved item line st hl (splitPath out) (yieldSingles dir base ext b e) _ 0 _ (fun n hn => (hin n hn).1) h2.1
  refine ⟨_, _, _, hr, ?_, ?_⟩
  · have hsame : ((yieldSingles dir base ext b e).map fun n => fs.get? (splitPath n)) =
        (yieldSingles dir base ext b e).map fun n => (fs'.put (splitPath out) (st.encode (joinLines head))).get? (splitPath n) :=
      List.map_congr_left fun n hn => (h2.same (hin n hn).1 (hin n hn).2).symm
    rw [hsame]
    exact a1
  · refine h2.later ?_ a3
    rw [a2, joinLines_append]

/-- **C123, without an output** nothing is changed and the rows are the same. -/
theorem C123_not_saved (item : ℕ → Option γ → Item ρ) (line : ρ → Text) (st : Store γ) (head : List Text) (fs : FS γ) (dir : Dir) (base ext : Text) (b : ℤ) (e : Option ℤ) :
    ∃ rows outcome, run item line st head none fs dir base ext b e = (fs, rows, outcome) ∧
      Rows item 0 ((yieldSingles dir base ext b e).map fun n => fs.get? (splitPath n)) rows outcome := by
  obtain ⟨h1, h2⟩ := runFiles_plain item line st (yieldSingles dir base ext b e) fs 0
  refine ⟨_, _, ?_, h1⟩
  show runFiles item line st none fs 0 (yieldSingles dir base ext b e) = _
  rw [Prod.ext_iff]
  exact ⟨h2, rfl⟩

/-- The rows and the outcome are determined by the contents. -/
theorem Rows.unique {item : ℕ → Option γ → Item ρ} {i : ℕ} {cs : List (Option γ)} {rs rs' : List ρ} {o o' : Except Err Unit} (h : Rows item i cs rs o) (h' : Rows item i cs rs' o') :
    rs = rs' ∧ o = o' := by
  induction h generalizing rs' o' with
  | done => cases h'; exact ⟨rfl, rfl⟩
  | row hi _ ih =>
    cases h' with
    | row hi' hr =>
      rw [hi] at hi'
      cases hi'
      obtain ⟨rfl, rfl⟩ := ih hr
      exact ⟨rfl, rfl⟩
    | skip hi' hr => rw [hi] at hi'; cases hi'
    | stop hi' => rw [hi] at hi'; cases hi'
  | skip hi _ ih =>
    cases h' with
    | row hi' hr => rw [hi] at hi'; cases hi'
    | skip hi' hr => exact ih hr
    | stop hi' => rw [hi] at hi'; cases hi'
  | stop hi =>
    cases h' with
    | row hi' hr => rw [hi] at hi'; cases hi'
    | skip hi' hr => rw [hi] at hi'; cases hi'
    | stop hi' =>
      rw [hi] at hi'
      cases hi'
      exact ⟨rfl, rfl⟩

/-- **C123, same values** with and without an output file. -/
theorem C123_same (item : ℕ → Option γ → Item ρ) (line : ρ → Text) (st : Store γ) (hl : st.Lawful) (head : List Text) (out : Text) (fs : FS γ) (dir : Dir) (base ext : Text) (b : ℤ)
    (e : Option ℤ) (hin : ∀ n ∈ yieldSingles dir base ext b e, splitPath n ≠ splitPath out ∧ fs.get? (splitPath n) ≠ none) :
    (run item line st head (some out) fs dir base ext b e).2 = (run item line st head none fs dir base ext b e).2 := by
  obtain ⟨fs', rows, o, h1, h2, -⟩ := C123_saved item line st hl head out fs dir base ext b e hin
  obtain ⟨rows', o', h3, h4⟩ := C123_not_saved item line st head fs dir base ext b e
  rw [h1, h3]
  obtain ⟨rfl, rfl⟩ := h2.unique h4
  rfl

/-! ## Interfaces -/

/-- The file `n` exists and holds the interface `pts`. -/
def HoldsInterface (text : γ → Text) (fs : FS γ) (n : Text) (pts : List Point) : Prop := ∃ c, fs.get? (splitPath n) = some c ∧ readPoints (text c) = .ok pts

theorem interfaceItem_read (text : γ → Text) (v : Variable) (dt : ℚ) (i : ℕ) (c : γ) (pts : List Point) (h : readPoints (text c) = .ok pts) :
    interfaceItem text v dt i (some c) = match sampleOf v pts with
      | .ok x => .row ((i : ℚ) * dt, x)
      | .error .typeError => .skip
      | .error e => .stop (.error e) := by
  unfold interfaceItem
  simp only
  rw [h]
  rfl

theorem holds_left {α β : Type} {R : α → β → Prop} {l : List α} {bs : List β} (h : List.Forall₂ R l bs) : ∀ a ∈ l, ∃ b, R a b := by
  induction h with
  | nil => intro a ha; cases ha
  | cons h1 _ ih =>
    intro a ha
    rcases List.mem_cons.mp ha with rfl | ha
    · exact ⟨_, h1⟩
    · exact ih a ha

theorem rows_interfaces (text : γ → Text) (v : Variable) (dt : ℚ) (fs : FS γ) {names : List Text} {files : List (List Point)} (h : List.Forall₂ (HoldsInterface text fs) names files) (i : ℕ) :
    Rows (interfaceItem text v dt) i (names.map fun n => fs.get? (splitPath n)) (sampleLoop (sampleOf v) dt i files).1 (sampleLoop (sampleOf v) dt i files).2 := by
  induction h generalizing i with
  | nil => exact .done i
  | @cons n pts names files h1 _ ih =>
    obtain ⟨c, hc, hr⟩ := h1
    have hi := interfaceItem_read text v dt i c pts hr
    rw [List.map_cons, hc]
    unfold sampleLoop
    cases hs : sampleOf v pts with
    | ok x =>
      rw [hs] at hi
      exact .row hi (ih (i + 1))
    | error e =>
      rw [hs] at hi
      cases e with
      | typeError => exact .skip hi (ih (i + 1))
      | _ => exact .stop hi

/-- The content is no interface, with the error `e`. -/
def NoInterface (text : γ → Text) (e : Err) : Option γ → Prop
  | none => e = .osError
  | some c => readPoints (text c) = .error e

theorem rows_interfaces_bad (text : γ → Text) (v : Variable) (dt : ℚ) (fs : FS γ) {names : List Text} {files : List (List Point)} (h : List.Forall₂ (HoldsInterface text fs) names files) (i : ℕ)
    (bad : Option γ) (rest : List (Option γ)) (e : Err) (hb : NoInterface text e bad) (hok : (sampleLoop (sampleOf v) dt i files).2 = .ok ()) :
    Rows (interfaceItem text v dt) i ((names.map fun n => fs.get? (splitPath n)) ++ bad :: rest) (sampleLoop (sampleOf v) dt i files).1 (.error e) := by
  induction h generalizing i with
  | nil =>
    refine .stop ?_
    unfold interfaceItem
    cases bad with
    | none => rw [show e = .osError from hb]
    | some c => simp only; rw [show readPoints (text c) = .error e from hb]
  | @cons n pts names files h1 _ ih =>
    obtain ⟨c, hc, hr⟩ := h1
    have hi := interfaceItem_read text v dt i c pts hr
    rw [List.map_cons, hc, List.cons_append]
    unfold sampleLoop at hok ⊢
    cases hs : sampleOf v pts with
    | ok x =>
      rw [hs] at hi hok
      exact .row hi (ih (i + 1) hok)
    | error e' =>
      rw [hs] at hi hok
      cases e' with
      | typeError => exact .skip hi (ih (i + 1) hok)
      | _ => cases hok

/-- **C123, interfaces.** `sample_interfaces` on files that hold interfaces returns the time and the sample of each file, in order, the time being the position of the file in the series times the time
step; files that cannot be sampled are left out.  The output is a table of these numbers with three decimals. -/
theorem C123_interfaces (text : γ → Text) (st : Store γ) (hl : st.Lawful) (head : List Text) (hh : Comments head) (v : Variable) (dt : ℚ) (out : Text) (fs : FS γ) (dir : Dir) (base ext : Text)
    (b : ℤ) (e : Option ℤ) (files : List (List Point)) (hf : List.Forall₂ (HoldsInterface text fs) (yieldSingles dir base ext b e) files)
    (hout : ∀ n ∈ yieldSingles dir base ext b e, splitPath n ≠ splitPath out) :
    ∃ fs' t rows, run (interfaceItem text v dt) sampleLine st head (some out) fs dir base ext b e = (fs', sampleLoop (sampleOf v) dt 0 files) ∧
      WrittenSafely fs fs' (splitPath out) (st.encode t) ∧ IsTable t rows ∧
      List.Forall₂ (fun (s : ℚ × ℝ) row => ∃ a b, row = [a, b] ∧ Shown (some (s.1 : ℝ)) a ∧ Shown (some s.2) b) (sampleLoop (sampleOf v) dt 0 files).1 rows := by
  have hex : ∀ n ∈ yieldSingles dir base ext b e, fs.get? (splitPath n) ≠ none := by
    intro n hn
    obtain ⟨pts, c, hc, -⟩ := holds_left hf n hn
    rw [hc]
    exact fun hc => by cases hc
  obtain ⟨fs', rs, o, h1, h2, h3⟩ := C123_saved (interfaceItem text v dt) sampleLine st hl head out fs dir base ext b e fun n hn => ⟨hout n hn, hex n hn⟩
  obtain ⟨rfl, rfl⟩ := h2.unique (rows_interfaces text v dt fs hf 0)
  obtain ⟨rows, h4, h5⟩ := C107_sample_file head hh v dt files
  exact ⟨fs', _, rows, h1, h3, h4, h5⟩

/-- **C123, a bad interface file.** A file that holds no interface ends the call with its error; the samples before it are in the output. -/
theorem C123_interfaces_bad (text : γ → Text) (st : Store γ) (hl : st.Lawful) (head : List Text) (hh : Comments head) (v : Variable) (dt : ℚ) (out : Text) (fs : FS γ) (dir : Dir) (base ext : Text)
    (b : ℤ) (e : Option ℤ) (good rest : List Text) (bad : Text) (hn : yieldSingles dir base ext b e = good ++ bad :: rest) (files : List (List Point))
    (hf : List.Forall₂ (HoldsInterface text fs) good files) (err : Err) (hbad : NoInterface text err (fs.get? (splitPath bad)))
    (hok : (sampleLoop (sampleOf v) dt 0 files).2 = .ok ())
    (hin : ∀ n ∈ yieldSingles dir base ext b e, splitPath n ≠ splitPath out ∧ fs.get? (splitPath n) ≠ none) :
    ∃ fs' t rows, run (interfaceItem text v dt) sampleLine st head (some out) fs dir base ext b e = (fs', (sampleLoop (sampleOf v) dt 0 files).1, .error err) ∧
      WrittenSafely fs fs' (splitPath out) (st.encode t) ∧ IsTable t rows ∧
      List.Forall₂ (fun (s : ℚ × ℝ) row => ∃ a b, row = [a, b] ∧ Shown (some (s.1 : ℝ)) a ∧ Shown (some s.2) b) (sampleLoop (sampleOf v) dt 0 files).1 rows := by
  obtain ⟨fs', rs, o, h1, h2, h3⟩ := C123_saved (interfaceItem text v dt) sampleLine st hl head out fs dir base ext b e hin
  have hr := rows_interfaces_bad text v dt fs hf 0 (fs.get? (splitPath bad)) (rest.map fun n => fs.get? (splitPath n)) err hbad hok
  rw [hn, List.map_append, List.map_cons] at h2
  obtain ⟨rfl, rfl⟩ := h2.unique hr
  obtain ⟨rows, h4, h5⟩ := C107_sample_file head hh v dt files
  exact ⟨fs', _, rows, h1, h3, h4, h5⟩

/-- Files of texts. -/
def textStore : Store Text := ⟨id, fun a b => a ++ b⟩

/-- Three interface files, the second one with edges of different heights, a file with three columns, and an old output. -/
def exRuns : FS Text :=
  [((".".toList, "a00001.xvg".toList), "# x y\n-1.0 0.0\n-1.0 1.0\n1.0 1.0\n1.0 0.0\n".toList), ((".".toList, "a00002.xvg".toList), "0.0 0.0\n1.0 5.0\n".toList),
    ((".".toList, "a00003.xvg".toList), "0.0 0.0\n0.0 2.0\n3.0 2.0\n3.0 0.0\n".toList), ((".".toList, "a00004.xvg".toList), "1 2 3\n".toList),
    ((".".toList, "s.xvg".toList), "old".toList)]

def exRunsDir : Dir := ["a00001.xvg".toList, "a00002.xvg".toList, "a00003.xvg".toList, "a00004.xvg".toList, "s.xvg".toList]

theorem exRuns_holds : List.Forall₂ (HoldsInterface id exRuns) ["a00001.xvg".toList, "a00002.xvg".toList, "a00003.xvg".toList]
    [[⟨-1, 0⟩, ⟨-1, 1⟩, ⟨1, 1⟩, ⟨1, 0⟩], [⟨0, 0⟩, ⟨1, 5⟩], [⟨0, 0⟩, ⟨0, 2⟩, ⟨3, 2⟩, ⟨3, 0⟩]] := by
  refine .cons ⟨"# x y\n-1.0 0.0\n-1.0 1.0\n1.0 1.0\n1.0 0.0\n".toList, ?_, ?_⟩ (.cons ⟨"0.0 0.0\n1.0 5.0\n".toList, ?_, ?_⟩
    (.cons ⟨"0.0 0.0\n0.0 2.0\n3.0 2.0\n3.0 0.0\n".toList, ?_, ?_⟩ .nil)) <;> decide +kernel

theorem exRuns_samples : sampleLoop (sampleOf .area) (1 / 2) 0 [[⟨-1, 0⟩, ⟨-1, 1⟩, ⟨1, 1⟩, ⟨1, 0⟩], [⟨0, 0⟩, ⟨1, 5⟩], [⟨0, 0⟩, ⟨0, 2⟩, ⟨3, 2⟩, ⟨3, 0⟩]] = ([(0, 2), (1, 6)], .ok ()) := by
  have h1 : area [-1, -1, 1, 1] [0, 1, 1, 0] = .ok 2 := by decide +kernel
  have h2 : area [0, 1] [0, 5] = .error .typeError := by decide +kernel
  have h3 : area [0, 0, 3, 3] [0, 2, 2, 0] = .ok 6 := by decide +kernel
  simp [sampleLoop, sampleOf, h1, h2, h3, Except.map]

/-- The series with the first three files; the second one is left out of the table, and its time too. -/
example : ∃ fs' t, run (interfaceItem id .area (1 / 2)) sampleLine textStore [] (some "s.xvg".toList) exRuns exRunsDir "a".toList ".xvg".toList 1 (some 3) = (fs', [(0, 2), (1, 6)], .ok ()) ∧
    WrittenSafely exRuns fs' (splitPath "s.xvg".toList) t := by
  have hn : yieldSingles exRunsDir "a".toList ".xvg".toList 1 (some 3) = ["a00001.xvg".toList, "a00002.xvg".toList, "a00003.xvg".toList] := by decide +kernel
  obtain ⟨fs', t, rows, h1, h2, -⟩ := C123_interfaces id textStore (fun _ _ => rfl) [] (by intro l hl; cases hl) .area (1 / 2) "s.xvg".toList exRuns exRunsDir "a".toList ".xvg".toList 1 (some 3) _
    (by rw [hn]; exact exRuns_holds) (by rw [hn]; decide +kernel)
  rw [exRuns_samples] at h1
  exact ⟨fs', _, h1, h2⟩

/-- With the fourth file the call fails; the samples before it are in the output. -/
example : ∃ fs' t, run (interfaceItem id .area (1 / 2)) sampleLine textStore [] (some "s.xvg".toList) exRuns exRunsDir "a".toList ".xvg".toList 1 none = (fs', [(0, 2), (1, 6)], .error .valueError) ∧
    WrittenSafely exRuns fs' (splitPath "s.xvg".toList) t := by
  have hn : yieldSingles exRunsDir "a".toList ".xvg".toList 1 none = ["a00001.xvg".toList, "a00002.xvg".toList, "a00003.xvg".toList] ++ "a00004.xvg".toList :: [] := by decide +kernel
  obtain ⟨fs', t, rows, h1, h2, -⟩ := C123_interfaces_bad id textStore (fun _ _ => rfl) [] (by intro l hl; cases hl) .area (1 / 2) "s.xvg".toList exRuns exRunsDir "a".toList ".xvg".toList 1 none
    _ _ _ hn _ exRuns_holds .valueError (by show readPoints _ = _; decide +kernel) (by rw [exRuns_samples]) (by rw [hn]; decide +kernel)
  rw [exRuns_samples] at h1
  exact ⟨fs', _, h1, h2⟩

/-! ## Averages of data maps -/

/-- The file `n` exists and is read as the map `m`. -/
def HoldsMap (read : γ → Except Err (Record × InfoDict)) (fs : FS γ) (n : Text) (m : Record × InfoDict) : Prop := ∃ c, fs.get? (splitPath n) = some c ∧ read c = .ok m

theorem rows_average (read : γ → Except Err (Record × InfoDict)) (o : SampleSeries.Opts) (dt : ℚ) (labels : List Label) (fs : FS γ) {names : List Text} {maps : List (Record × InfoDict)}
    (h : List.Forall₂ (HoldsMap read fs) names maps) (i : ℕ) :
    Rows (averageItem read o dt labels) i (names.map fun n => fs.get? (splitPath n)) (SampleSeries.loop o dt labels i maps).lines
      ((SampleSeries.loop o dt labels i maps).result.map fun _ => ()) := by
  induction h generalizing i with
  | nil => exact .done i
  | @cons n m names maps h1 _ ih =>
    obtain ⟨c, hc, hr⟩ := h1
    rw [List.map_cons, hc]
    have hi : averageItem read o dt labels i (some c) = match SampleSeries.frame o m with
        | .error e => .stop (.error e)
        | .ok f => match SampleSeries.sampleLabels o f labels with
          | .error _ => .stop (.ok ())
          | .ok vs => .row ((i : ℚ) * dt, vs) := by
      unfold averageItem
      simp only
      rw [hr]
      rfl
    unfold SampleSeries.loop
    cases hs : SampleSeries.frame o m with
    | error e =>
      rw [hs] at hi
      exact .stop hi
    | ok f =>
      rw [hs] at hi
      simp only at hi ⊢
      cases hv : SampleSeries.sampleLabels o f labels with
      | error e =>
        rw [hv] at hi
        exact .stop hi
      | ok vs =>
        rw [hv] at hi
        simp only at hi ⊢
        have := ih (i + 1)
        refine .row hi ?_
        cases hl : (SampleSeries.loop o dt labels (i + 1) maps).result with
        | error e => rw [hl] at this; exact this
        | ok t => rw [hl] at this; exact this

/-- **C123, data maps.** `sample_average_files` on readable maps writes the lines of the frames sampled (C60) to its output, after the header. -/
theorem C123_average (read : γ → Except Err (Record × InfoDict)) (o : SampleSeries.Opts) (dt : ℚ) (labels : List Label) (line : ℚ × List SampleSeries.Value → Text) (st : Store γ)
    (hl : st.Lawful) (head : List Text) (out : Text) (fs : FS γ) (dir : Dir) (base ext : Text) (b : ℤ) (e : Option ℤ) (maps : List (Record × InfoDict))
    (hf : List.Forall₂ (HoldsMap read fs) (yieldSingles dir base ext b e) maps) (hout : ∀ n ∈ yieldSingles dir base ext b e, splitPath n ≠ splitPath out) :
    ∃ fs' outcome, run (averageItem read o dt labels) line st head (some out) fs dir base ext b e = (fs', (SampleSeries.sampleAverage o dt labels maps).1, outcome) ∧
      WrittenSafely fs fs' (splitPath out) (st.encode (joinLines (head ++ (SampleSeries.sampleAverage o dt labels maps).1.map line))) ∧
      (∀ err, outcome = .error err → (SampleSeries.sampleAverage o dt labels maps).2 = .error err) := by
  have hex : ∀ n ∈ yieldSingles dir base ext b e, fs.get? (splitPath n) ≠ none := by
    intro n hn
    obtain ⟨pts, c, hc, -⟩ := holds_left hf n hn
    rw [hc]
    exact fun hc => by cases hc
  obtain ⟨fs', rs, oc, h1, h2, h3⟩ := C123_saved (averageItem read o dt labels) line st hl head out fs dir base ext b e fun n hn => ⟨hout n hn, hex n hn⟩
  obtain ⟨rfl, rfl⟩ := h2.unique (rows_average read o dt labels fs hf 0)
  refine ⟨fs', _, h1, h3, fun err he => ?_⟩
  unfold SampleSeries.sampleAverage
  simp only
  cases hr : (SampleSeries.loop o dt labels 0 maps).result with
  | error e' => rw [hr] at he; cases he; rfl
  | ok t => rw [hr] at he; cases he

/-- Two maps. -/
def exMapsFs : FS (Text ⊕ (Record × InfoDict)) :=
  [((".".toList, "a00001.dat".toList), .inr ([("X", [0, 1]), ("Y", [0, 0]), ("U", [1, 2]), ("V", [0, 0]), ("M", [3, 4]), ("N", [1, 1]), ("T", [5, 5])], [])),
    ((".".toList, "a00002.dat".toList), .inr ([("X", [0]), ("Y", [0]), ("U", [1]), ("V", [0]), ("M", [2]), ("N", [1]), ("T", [5])], []))]

def exMapsRead : Text ⊕ (Record × InfoDict) → Except Err (Record × InfoDict)
  | .inl _ => .error .valueError
  | .inr m => .ok m

def exMapsStore : Store (Text ⊕ (Record × InfoDict)) := ⟨.inl, fun c t => match c with | .inl s => .inl (s ++ t) | .inr m => .inr m⟩

/-- The sums of the mass of two maps. -/
example : ∃ fs' outcome, run (averageItem exMapsRead { sum := true } 2 ["M"]) (fun _ => "x".toList) exMapsStore ["# h".toList] (some "s.xvg".toList) exMapsFs
      ["a00001.dat".toList, "a00002.dat".toList] "a".toList ".dat".toList 1 none = (fs', [(0, [.number (some 7) none]), (2, [.number (some 2) none])], outcome) ∧
    WrittenSafely exMapsFs fs' (splitPath "s.xvg".toList) (.inl "# h\nx\nx\n".toList) := by
  have hn : yieldSingles ["a00001.dat".toList, "a00002.dat".toList] "a".toList ".dat".toList 1 none = ["a00001.dat".toList, "a00002.dat".toList] := by decide +kernel
  obtain ⟨fs', o, h1, h2, -⟩ := C123_average exMapsRead { sum := true } 2 ["M"] (fun _ => "x".toList) exMapsStore (fun _ _ => rfl) ["# h".toList] "s.xvg".toList exMapsFs
    ["a00001.dat".toList, "a00002.dat".toList] "a".toList ".dat".toList 1 none
    [([("X", [0, 1]), ("Y", [0, 0]), ("U", [1, 2]), ("V", [0, 0]), ("M", [3, 4]), ("N", [1, 1]), ("T", [5, 5])], []),
      ([("X", [0]), ("Y", [0]), ("U", [1]), ("V", [0]), ("M", [2]), ("N", [1]), ("T", [5])], [])]
    (by rw [hn]; exact .cons ⟨_, rfl, rfl⟩ (.cons ⟨_, rfl, rfl⟩ .nil)) (by rw [hn]; decide +kernel)
  have hl : (SampleSeries.sampleAverage { sum := true } 2 ["M"] [([("X", [0, 1]), ("Y", [0, 0]), ("U", [1, 2]), ("V", [0, 0]), ("M", [3, 4]), ("N", [1, 1]), ("T", [5, 5])], []),
      ([("X", [0]), ("Y", [0]), ("U", [1]), ("V", [0]), ("M", [2]), ("N", [1]), ("T", [5])], [])]).1 = [(0, [.number (some 7) none]), (2, [.number (some 2) none])] := by
    have hs : ∀ (f : Flow) (c : List ℚ) (x : ℚ), SampleSeries.sampleData { sum := true } f "M" = .ok (f, c.map some) →
        SampleSeries.sum ((List.range (Flow.size f.data)).map fun t => (c.map some).getD t none) = some x →
        SampleSeries.sampleLabels { sum := true } f ["M"] = .ok [.number (some x) none] := by
      intro f c x h1 h2
      rw [SampleSeries.sampleLabels_cons]
      unfold SampleSeries.sampleLabel SampleSeries.sampleValue
      rw [if_neg (by decide), if_neg (by decide), h1]
      rw [Gmx.ok_bind]
      unfold SampleSeries.rows SampleSeries.statistics
      simp only
      rw [Gmx.ok_bind, Gmx.ok_bind, h2]
      rfl
    have f1 : SampleSeries.frame { sum := true } ([("X", [0, 1]), ("Y", [0, 0]), ("U", [1, 2]), ("V", [0, 0]), ("M", [3, 4]), ("N", [1, 1]), ("T", [5, 5])], []) =
        .ok ⟨[("X", [0, 1]), ("Y", [0, 0]), ("U", [1, 2]), ("V", [0, 0]), ("M", [3, 4]), ("N", [1, 1]), ("T", [5, 5])], {}⟩ := by decide +kernel
    have f2 : SampleSeries.frame { sum := true } ([("X", [0]), ("Y", [0]), ("U", [1]), ("V", [0]), ("M", [2]), ("N", [1]), ("T", [5])], []) =
        .ok ⟨[("X", [0]), ("Y", [0]), ("U", [1]), ("V", [0]), ("M", [2]), ("N", [1]), ("T", [5])], {}⟩ := by decide +kernel
    have s1 := hs ⟨[("X", [0, 1]), ("Y", [0, 0]), ("U", [1, 2]), ("V", [0, 0]), ("M", [3, 4]), ("N", [1, 1]), ("T", [5, 5])], {}⟩ [3, 4] 7 (by decide +kernel) (by decide +kernel)
    have s2 := hs ⟨[("X", [0]), ("Y", [0]), ("U", [1]), ("V", [0]), ("M", [2]), ("N", [1]), ("T", [5])], {}⟩ [2] 2 (by decide +kernel) (by decide +kernel)
    simp [SampleSeries.sampleAverage, SampleSeries.loop, f1, f2, s1, s2]
  rw [hl] at h1 h2
  exact ⟨fs', o, h1, h2⟩

/-! ## C124: contact angles -/

theorem angleItems_ok (text : γ → Text) (fit : Bool) (height : Option ℚ) (fs : FS γ) (names : List Text) (files : List (List Point))
    (h : names.mapM (angleItem text fit height fs) = .ok files) : List.Forall₂ (HoldsInterface text fs) names files ∧ ∃ rows, files.mapM (angleRow fit height) = .ok rows := by
  induction names generalizing files with
  | nil =>
    cases h
    exact ⟨.nil, [], rfl⟩
  | cons n names ih =>
    rw [List.mapM_cons] at h
    obtain ⟨pts, h1, h⟩ := Simple.bind_eq_ok h
    obtain ⟨rest, h2, h⟩ := Simple.bind_eq_ok h
    cases h
    obtain ⟨a, rows, hr⟩ := ih rest h2
    unfold angleItem at h1
    obtain ⟨c, hc, h1⟩ := Simple.bind_eq_ok h1
    obtain ⟨p, hp, h1⟩ := Simple.bind_eq_ok h1
    obtain ⟨row, hrow, h1⟩ := Simple.bind_eq_ok h1
    cases h1
    refine ⟨.cons ⟨c, ?_, hp⟩ a, row :: rows, ?_⟩
    · unfold contentOf at hc
      cases hg : fs.get? (splitPath n) with
      | none => rw [hg] at hc; cases hc
      | some c' => rw [hg] at hc; cases hc; rfl
    · rw [List.mapM_cons, hrow, Gmx.ok_bind, hr]
      rfl

theorem angleItems_of (text : γ → Text) (fit : Bool) (height : Option ℚ) (fs : FS γ) {names : List Text} {files : List (List Point)} (hf : List.Forall₂ (HoldsInterface text fs) names files)
    {rows} (hr : files.mapM (angleRow fit height) = .ok rows) : names.mapM (angleItem text fit height fs) = .ok files := by
  induction hf generalizing rows with
  | nil => rfl
  | @cons n pts names files h1 _ ih =>
    obtain ⟨c, hc, hp⟩ := h1
    rw [List.mapM_cons] at hr
    obtain ⟨row, hrow, hr⟩ := Simple.bind_eq_ok hr
    obtain ⟨rest, h2, hr⟩ := Simple.bind_eq_ok hr
    have : angleItem text fit height fs n = .ok pts := by
      unfold angleItem contentOf
      rw [hc]
      simp only [Option.elim_some]
      rw [Gmx.ok_bind, hp, Gmx.ok_bind, hrow]
      rfl
    rw [List.mapM_cons, this, Gmx.ok_bind, ih h2]
    rfl

/-- **C124, success.** Contact angles of files that hold interfaces: the result is that of the interfaces (C88), and the output, written only then, is a table of it with one row per time. -/
theorem C124_angles (text : γ → Text) (encode : Text → γ) (head : List Text) (hh : Comments head) (fit : Bool) (height : Option ℚ) (dt : ℚ) (out : Text) (fs : FS γ) (dir : Dir) (base ext : Text)
    (b : ℤ) (e : Option ℤ) (files : List (List Point)) (hf : List.Forall₂ (HoldsInterface text fs) (yieldSingles dir base ext b e) files) (times : List ℚ) (A : Angles)
    (hok : contactAngles fit height dt files = .ok (times, A)) :
    angleRun text encode head none fit height dt fs dir base ext b e = (fs, .ok (times, A)) ∧
    ∃ fs' t rows, angleRun text encode head (some out) fit height dt fs dir base ext b e = (fs', .ok (times, A)) ∧ WrittenSafely fs fs' (splitPath out) (encode t) ∧
      IsTable t rows ∧ rows.length = times.length ∧ ∀ i row, rows[i]? = some row → List.Forall₂ Shown (angleCells fit height times A i) row := by
  obtain ⟨rows, hr, -⟩ : ∃ rows, files.mapM (angleRow fit height) = .ok rows ∧ True := by
    unfold contactAngles at hok
    obtain ⟨rows, hrows, -⟩ := Simple.bind_eq_ok hok
    exact ⟨rows, hrows, trivial⟩
  have hi := angleItems_of text fit height fs hf hr
  obtain ⟨trows, h1, h2, h3⟩ := C108_angle_file head hh fit height dt files times A hok
  obtain ⟨fs', h4, h5⟩ := prepared fs (splitPath out) (encode (angleFile head times A))
  refine ⟨?_, fs'.put (splitPath out) (encode (angleFile head times A)), _, trows, ?_, h5, h1, h2, h3⟩
  · unfold angleRun
    rw [hi]
    simp only
    rw [hok]
  · unfold angleRun
    rw [hi]
    simp only
    rw [hok]
    simp only
    rw [h4]

/-- **C124, failure.** If a file is missing, holds no interface, or its angles cannot be calculated, the call fails and no file is written, moved or changed; otherwise it succeeds. -/
theorem C124_failure (text : γ → Text) (encode : Text → γ) (head : List Text) (fit : Bool) (height : Option ℚ) (dt : ℚ) (save : Option Text) (fs : FS γ) (dir : Dir) (base ext : Text) (b : ℤ)
    (e : Option ℤ) :
    (∃ err, angleRun text encode head save fit height dt fs dir base ext b e = (fs, .error err)) ↔
      ∃ n ∈ yieldSingles dir base ext b e, ¬ ∃ pts row, HoldsInterface text fs n pts ∧ angleRow fit height pts = .ok row := by
  have hitem : ∀ n, (∃ pts, angleItem text fit height fs n = .ok pts) ↔ ∃ pts row, HoldsInterface text fs n pts ∧ angleRow fit height pts = .ok row := by
    intro n
    constructor
    · rintro ⟨pts, h⟩
      have h' : [n].mapM (angleItem text fit height fs) = .ok [pts] := by rw [List.mapM_cons, h]; rfl
      obtain ⟨a, rows, hr⟩ := angleItems_ok text fit height fs [n] [pts] h'
      rw [List.mapM_cons] at hr
      obtain ⟨row, hrow, -⟩ := Simple.bind_eq_ok hr
      cases a with
      | cons a _ => exact ⟨pts, row, a, hrow⟩
    · rintro ⟨pts, row, h1, h2⟩
      have := angleItems_of (names := [n]) (files := [pts]) text fit height fs (.cons h1 .nil) (rows := [row]) (by rw [List.mapM_cons, h2]; rfl)
      rw [List.mapM_cons] at this
      obtain ⟨p, hp, -⟩ := Simple.bind_eq_ok this
      exact ⟨p, hp⟩
  cases hm : (yieldSingles dir base ext b e).mapM (angleItem text fit height fs) with
  | error err =>
    constructor
    · intro _
      by_contra hc
      push Not at hc
      have hall : ∀ n ∈ yieldSingles dir base ext b e, ∃ pts, angleItem text fit height fs n = .ok pts := fun n hn => (hitem n).mpr (hc n hn)
      clear hc
      generalize yieldSingles dir base ext b e = names at hm hall
      induction names generalizing err with
      | nil => cases hm
      | cons n names ih =>
        obtain ⟨pts, hp⟩ := hall n (by simp)
        rw [List.mapM_cons, hp, Gmx.ok_bind] at hm
        cases hr : names.mapM (angleItem text fit height fs) with
        | error e' => exact ih e' hr fun m hm' => hall m (by simp [hm'])
        | ok l => rw [hr] at hm; cases hm
    · intro _
      refine ⟨err, ?_⟩
      unfold angleRun
      rw [hm]
  | ok files =>
    obtain ⟨hf, rows, hr⟩ := angleItems_ok text fit height fs _ files hm
    constructor
    · rintro ⟨err, h⟩
      exfalso
      obtain ⟨r, hc⟩ : ∃ r, contactAngles fit height dt files = .ok r := by
        unfold contactAngles
        rw [hr, Gmx.ok_bind]
        exact ⟨_, rfl⟩
      have h2 := congrArg Prod.snd h
      unfold angleRun at h2
      rw [hm] at h2
      simp only at h2
      rw [hc] at h2
      cases save with
      | none => cases h2
      | some out =>
        obtain ⟨fs', h4, -⟩ := prepared fs (splitPath out) (encode [])
        simp only at h2
        rw [h4] at h2
        cases h2
    · rintro ⟨n, hn, hbad⟩
      exfalso
      refine hbad ((hitem n).mp ?_)
      clear hf hr hbad hitem
      generalize yieldSingles dir base ext b e = names at hm hn
      induction names generalizing files with
      | nil => cases hn
      | cons m names ih =>
        rw [List.mapM_cons] at hm
        obtain ⟨pts, h1, hm⟩ := Simple.bind_eq_ok hm
        obtain ⟨rest, h2, hm⟩ := Simple.bind_eq_ok hm
        rcases List.mem_cons.mp hn with rfl | hn
        · exact ⟨pts, h1⟩
        · exact ih rest h2 hn

/-- Two droplets as files. -/
def exDrops : FS Text :=
  [((".".toList, "a00001.xvg".toList), "0 0\n1 1\n2 2\n4 2\n5 1\n6 0\n".toList), ((".".toList, "a00002.xvg".toList), "0 0\n0 1\n6 1\n6 0\n".toList)]

/-- The hypotheses of `C124_angles` are met; and a file with one point makes the call fail. -/
example : (∃ fs' r t, angleRun id id [] (some "s.xvg".toList) true (some 1) 10 exDrops ["a00001.xvg".toList, "a00002.xvg".toList] "a".toList ".xvg".toList 1 none = (fs', .ok r) ∧
      WrittenSafely exDrops fs' (splitPath "s.xvg".toList) t) ∧
    ∃ err, angleRun id id [] (some "s.xvg".toList) true (some 1) 10 [((".".toList, "a00001.xvg".toList), "0 0\n".toList)] ["a00001.xvg".toList] "a".toList ".xvg".toList 1 none =
      ([((".".toList, "a00001.xvg".toList), "0 0\n".toList)], .error err) := by
  constructor
  · obtain ⟨⟨times, A⟩, h⟩ := exAngles_ok
    have hn : yieldSingles ["a00001.xvg".toList, "a00002.xvg".toList] "a".toList ".xvg".toList 1 none = ["a00001.xvg".toList, "a00002.xvg".toList] := by decide +kernel
    obtain ⟨-, fs', t, rows, h1, h2, -⟩ := C124_angles id id [] (by intro l hl; cases hl) true (some 1) 10 "s.xvg".toList exDrops ["a00001.xvg".toList, "a00002.xvg".toList] "a".toList ".xvg".toList 1 none
      _ (by rw [hn]
            refine .cons ⟨"0 0\n1 1\n2 2\n4 2\n5 1\n6 0\n".toList, ?_, ?_⟩ (.cons ⟨"0 0\n0 1\n6 1\n6 0\n".toList, ?_, ?_⟩ .nil) <;> decide +kernel) times A h
    exact ⟨fs', _, t, h1, h2⟩
  · rw [C124_failure]
    have hn : yieldSingles ["a00001.xvg".toList] "a".toList ".xvg".toList 1 none = ["a00001.xvg".toList] := by decide +kernel
    rw [hn]
    refine ⟨"a00001.xvg".toList, by simp, ?_⟩
    rintro ⟨pts, row, ⟨c, hc, hp⟩, -⟩
    have hc' : c = "0 0\n".toList := by
      have : FS.get? [((".".toList, "a00001.xvg".toList), "0 0\n".toList)] (splitPath "a00001.xvg".toList) = some "0 0\n".toList := by decide +kernel
      rw [this] at hc
      exact (Option.some.inj hc).symm
    subst hc'
    have : readPoints "0 0\n".toList = .error .typeError := by decide +kernel
    rw [id, this] at hp
    cases hp

end Strata.SavedRuns
