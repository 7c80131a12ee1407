import Verif.Proofs.SpreadingText
/-!
# Spreading files as text: C97, C98
-/
namespace Strata.SpreadingText
open Strata Strata.Files Strata.PyText Strata.Spreading Strata.Cli Strata.Spec

/-! ## C97 -/

/-- A file left by collect, read alone. -/
theorem readFile_saved (h : Header) (dt t0 : ℚ) (flag : Bool) (frames : List Frame) (name : Text) (hh : h.All (· ≠ '\n'))
    (hp : ∀ f ∈ frames, ∀ c ∈ fileName f.path, c ≠ '\n') :
    (2 ≤ (collect dt t0 true flag frames).rows.length →
      readFile name (savedFile h (collect dt t0 true flag frames).lines) = .ok (rowSeries name (collect dt t0 true flag frames).rows)) ∧
    ((collect dt t0 true flag frames).rows.length < 2 → h.All (· ≠ '@') → (∀ f ∈ frames, ∀ c ∈ fileName f.path, c ≠ '@') →
      readFile name (savedFile h (collect dt t0 true flag frames).lines) = .ok []) := by
  have ht := saved_table h dt t0 flag frames hh hp
  constructor
  · intro h2
    have hne : (collect dt t0 true flag frames).rows ≠ [] := by intro h0; rw [h0] at h2; simp at h2
    unfold readFile readPlain
    rw [ht, Gmx.ok_bind, tableWidth_rows _ hne, Gmx.ok_bind, if_neg (by rw [List.length_map]; omega)]
    simp only [Nat.reduceSub, List.range_succ, List.range_zero, List.nil_append, List.cons_append, List.map_cons, List.map_nil]
    rw [getSeries_rows name _ (0 + 1) (0 + 1) (fun r => rounded 3 r.radius) (fun r => rfl), getSeries_rows name _ (1 + 1) (1 + 1) (fun r => rounded 3 r.left) (fun r => rfl),
      getSeries_rows name _ (2 + 1) (2 + 1) (fun r => rounded 3 r.right) (fun r => rfl)]
    rfl
  · intro h2 ha hpa
    have hplain : ∃ e, readPlain name (savedFile h (collect dt t0 true flag frames).lines) = .error e := by
      unfold readPlain
      rw [ht, Gmx.ok_bind]
      by_cases hne : (collect dt t0 true flag frames).rows = []
      · rw [hne]; exact ⟨_, rfl⟩
      · rw [tableWidth_rows _ hne, Gmx.ok_bind, if_pos]
        · exact ⟨_, rfl⟩
        · left
          rw [List.length_map]
          have := List.length_pos_iff.mpr hne
          omega
    obtain ⟨e, he⟩ := hplain
    unfold readFile
    rw [he]
    simp only
    obtain ⟨comments, ec, hc⟩ := saved_lines h dt t0 flag frames (· ≠ '@') ha hpa (fun c hc => hc.2.2)
    have hno : '@' ∉ savedFile h (collect dt t0 true flag frames).lines := by
      unfold savedFile
      rw [ec, rows_texts]
      intro hm
      rcases mem_joinLines hm with h0 | ⟨l, hl, hcl⟩
      · exact absurd h0 (by decide)
      · rcases List.mem_append.mp hl with hl | hl
        · exact (hc l hl).2 _ hcl rfl
        · obtain ⟨r, -, rfl⟩ := List.mem_map.mp hl
          exact (row_chars r _ hcl).2.2 rfl
    unfold readXvg splitSep
    rw [splitAux_none target '@' rfl _ [] hno]
    rfl

/-- **C97, the radii.** The file a spreading curve of at least two points was saved to is read without warning, and the first series read from it has the saved times and radii
with three decimals. (Missing: further series are read from it, and shorter curves are lost, see `C97_edges_counterexample` and `C97_short_counterexample`.) -/
theorem C97_radii_partial (h : Header) (dt t0 : ℚ) (flag : Bool) (frames : List Frame) (name : Text) (fs : Text → Option Text)
    (hfs : fs name = some (savedFile h (collect dt t0 true flag frames).lines)) (hh : h.All (· ≠ '\n')) (hp : ∀ f ∈ frames, ∀ c ∈ fileName f.path, c ≠ '\n')
    (h2 : 2 ≤ (collect dt t0 true flag frames).rows.length) :
    ∃ more, readSpreading fs [name] =
      (⟨name ++ ".1".toList, (collect dt t0 true flag frames).rows.map fun r => (.num (rounded 3 r.time), .num (rounded 3 r.radius))⟩ :: more, []) := by
  refine ⟨(rowSeries name (collect dt t0 true flag frames).rows).tail, ?_⟩
  rw [readSpreading, hfs]
  simp only [Option.elim_some]
  rw [(readFile_saved h dt t0 flag frames name hh hp).1 h2]
  simp only [readSpreading, List.append_nil]
  rfl

/-- **C97, accuracy.** A number with `k` decimals differs from the original one by at most half a unit of the last decimal. -/
theorem C97_accuracy (k : ℕ) (x : ℚ) : |rounded k x - x| ≤ 1 / 2 / 10 ^ k := rounded_near k x

/-- **C97, counterexample: edges.** From every saved curve of at least two points three series are read: those of the left and right edge are taken for spreading radii, too. -/
theorem C97_edges_counterexample (h : Header) (dt t0 : ℚ) (flag : Bool) (frames : List Frame) (name : Text) (fs : Text → Option Text)
    (hfs : fs name = some (savedFile h (collect dt t0 true flag frames).lines)) (hh : h.All (· ≠ '\n')) (hp : ∀ f ∈ frames, ∀ c ∈ fileName f.path, c ≠ '\n')
    (h2 : 2 ≤ (collect dt t0 true flag frames).rows.length) :
    (readSpreading fs [name]).1.map Named.points =
      [(collect dt t0 true flag frames).rows.map fun r => (.num (rounded 3 r.time), .num (rounded 3 r.radius)),
        (collect dt t0 true flag frames).rows.map fun r => (.num (rounded 3 r.time), .num (rounded 3 r.left)),
        (collect dt t0 true flag frames).rows.map fun r => (.num (rounded 3 r.time), .num (rounded 3 r.right))] := by
  rw [readSpreading, hfs]
  simp only [Option.elim_some]
  rw [(readFile_saved h dt t0 flag frames name hh hp).1 h2]
  simp only [readSpreading, List.append_nil]
  rfl

/-- **C97, counterexample: short curves.** A saved curve with one point is lost without a warning (as one without points). -/
theorem C97_short_counterexample (h : Header) (dt t0 : ℚ) (flag : Bool) (frames : List Frame) (name : Text) (fs : Text → Option Text)
    (hfs : fs name = some (savedFile h (collect dt t0 true flag frames).lines)) (hh : h.All fun c => c ≠ '\n' ∧ c ≠ '@')
    (hp : ∀ f ∈ frames, ∀ c ∈ fileName f.path, c ≠ '\n' ∧ c ≠ '@') (h2 : (collect dt t0 true flag frames).rows.length < 2) :
    readSpreading fs [name] = ([], []) := by
  obtain ⟨a1, a2, a3, a4, a5, a6, a7, a8, a9, a10⟩ := hh
  rw [readSpreading, hfs]
  simp only [Option.elim_some]
  rw [(readFile_saved h dt t0 flag frames name
    ⟨fun c hc => (a1 c hc).1, fun c hc => (a2 c hc).1, fun c hc => (a3 c hc).1, fun c hc => (a4 c hc).1, fun c hc => (a5 c hc).1, fun c hc => (a6 c hc).1, fun c hc => (a7 c hc).1,
      fun c hc => (a8 c hc).1, fun c hc => (a9 c hc).1, fun c hc => (a10 c hc).1⟩ (fun f hf c hc => (hp f hf c hc).1)).2 h2
    ⟨fun c hc => (a1 c hc).2, fun c hc => (a2 c hc).2, fun c hc => (a3 c hc).2, fun c hc => (a4 c hc).2, fun c hc => (a5 c hc).2, fun c hc => (a6 c hc).2, fun c hc => (a7 c hc).2,
      fun c hc => (a8 c hc).2, fun c hc => (a9 c hc).2, fun c hc => (a10 c hc).2⟩ (fun f hf c hc => (hp f hf c hc).2)]
  rfl

/-- A header and three maps. -/
def exHeader : Header := ⟨"Mon".toList, "0.1".toList, "'/data/map'".toList, "1".toList, "inf".toList, "None".toList, "1.0".toList, "None".toList, "1.0".toList, "1".toList⟩
def exFrames : List Frame := [⟨10, some (1, 2), "d/map_00001.dat".toList⟩, ⟨10, none, []⟩, ⟨10, some (-1 / 3, 5), "d/map_00003.dat".toList⟩]

/-- The hypotheses hold for them: two points are saved. -/
example : exHeader.All (fun c => c ≠ '\n' ∧ c ≠ '@') ∧ (∀ f ∈ exFrames, ∀ c ∈ fileName f.path, c ≠ '\n' ∧ c ≠ '@') ∧
    (collect 1 0 true false exFrames).rows.length = 2 ∧ (collect 1 0 true false (exFrames.take 2)).rows.length = 1 := by
  refine ⟨⟨?_, ?_, ?_, ?_, ?_, ?_, ?_, ?_, ?_, ?_⟩, ?_, ?_, ?_⟩ <;> decide +kernel

/-- The last line of the file and how its numbers are read. -/
example : ((collect 1 0 true false exFrames).lines.flatMap lineTexts).map String.ofList =
    ["# Droplet impact:", "#   Time: 0.000 ps", "#   File: 'map_00001.dat'", "# ", "# Time (ps) Radius (nm) Left (nm) Right (nm)", "0.000 0.500 1.000 2.000", "1.000 2.667 -0.333 5.000"] ∧
    rounded 3 (-1 / 3) = -333 / 1000 := by
  refine ⟨?_, ?_⟩ <;> decide +kernel

/-! ## C98 -/

/-- Comments and names which neither end a line nor contain `@`. -/
def Clean (t : Text) : Prop := ∀ c ∈ t, c ≠ '\n' ∧ c ≠ '@'

theorem safe_lines (ls : List Text) (h : ∀ l ∈ ls, Safe l) : Safe (joinLines ls) := by
  unfold joinLines
  induction ls with
  | nil => trivial
  | cons l ls ih =>
    rw [List.flatMap_cons]
    exact safe_append (safe_append (h l (by simp)) (safe_of (by decide))) (ih fun m hm => h m (by simp [hm]))

/-- The lines before the data sets. -/
def preamble (header : List Text) (data : List (Text × Series)) : List Text :=
  header ++ "@with g0".toList :: data.zipIdx.map fun p => "@    s".toList ++ decimal p.2 ++ " comment \"".toList ++ p.1.1 ++ "\"".toList

theorem preamble_safe (header : List Text) (data : List (Text × Series)) (hh : ∀ l ∈ header, Clean l) (hd : ∀ p ∈ data, Clean p.1) :
    (∀ l ∈ preamble header data, Safe l) ∧ ∀ l ∈ preamble header data, '\n' ∉ l := by
  constructor
  · intro l hl
    unfold preamble at hl
    rcases List.mem_append.mp hl with hl | hl
    · exact safe_of fun c hc => (hh l hl c hc).2
    · rcases List.mem_cons.mp hl with rfl | hl
      · exact ⟨.inr ⟨by decide, by decide⟩, safe_of (by decide)⟩
      · obtain ⟨p, hp, rfl⟩ := List.mem_map.mp hl
        have hm : p.1 ∈ data := by
          obtain ⟨x, i⟩ := p
          exact (List.mem_zipIdx' hp).2 ▸ List.getElem_mem _
        refine safe_append (safe_append (safe_append (safe_append ?_ (safe_of fun c hc => (decimal_safe _ c hc).1)) (safe_of (by decide)))
          (safe_of fun c hc => (hd _ hm c hc).2)) (safe_of (by decide))
        exact ⟨.inr ⟨by decide, by decide⟩, safe_of (by decide)⟩
  · intro l hl
    unfold preamble at hl
    rcases List.mem_append.mp hl with hl | hl
    · exact fun hc => (hh l hl _ hc).1 rfl
    · rcases List.mem_cons.mp hl with rfl | hl
      · decide
      · obtain ⟨p, hp, rfl⟩ := List.mem_map.mp hl
        have hm : p.1 ∈ data := by
          obtain ⟨x, i⟩ := p
          exact (List.mem_zipIdx' hp).2 ▸ List.getElem_mem _
        simp only [List.mem_append, not_or]
        refine ⟨⟨⟨⟨by decide, ?_⟩, by decide⟩, fun hc => (hd _ hm _ hc).1 rfl⟩, by decide⟩
        intro hc
        have := (decimal_safe _ _ hc).2
        exact absurd this (by decide)

/-- A file with data sets is not a table of numbers. -/
theorem readPlain_sets (name : Text) (toStr : ToString) (header : List Text) (data : List (Text × Series)) (hh : ∀ l ∈ header, Clean l) (hd : ∀ p ∈ data, Clean p.1) :
    ∃ e, readPlain name (writeSets toStr header data) = .error e := by
  unfold readPlain writeSets
  have hf : fileLines (joinLines (preamble header data) ++ dataSets toStr 0 (data.map Prod.snd)) = preamble header data ++ fileLines (dataSets toStr 0 (data.map Prod.snd)) :=
    fileLines_join _ _ (preamble_safe header data hh hd).2
  unfold preamble at hf
  rw [hf]
  have hm : ["@with".toList, "g0".toList] ∈ (((header ++ "@with g0".toList :: data.zipIdx.map fun p => "@    s".toList ++ decimal p.2 ++ " comment \"".toList ++ p.1.1 ++ "\"".toList) ++
      fileLines (dataSets toStr 0 (data.map Prod.snd))).map fun l => words (l.takeWhile (· ≠ '#'))).filter (· ≠ []) := by
    rw [List.mem_filter]
    refine ⟨List.mem_map.mpr ⟨"@with g0".toList, by simp, by decide +kernel⟩, by decide⟩
  obtain ⟨e, he⟩ := mapM_err numbers (e := .valueError) _ hm (by decide +kernel)
  exact ⟨e, by rw [he]; rfl⟩

theorem toStr_noAt (toStr : ToString) (rnd : ℚ → ℚ) (hp : Prints toStr rnd) (s : Series) : ∀ c ∈ toStr s, c ≠ '@' := by
  intro c hc
  by_cases hs : s = []
  · subst hs; exact (hp.empty.1 c hc).2
  · obtain ⟨ls, e, hl⟩ := hp.lines s hs
    rw [e] at hc
    have hj : c ∈ joinLines ls := by
      rw [← intercalate_newline ls]
      · exact List.mem_append_left _ hc
      · rintro rfl; exact hs (List.length_eq_zero_iff.mp hl.length_eq)
    rcases mem_joinLines hj with rfl | ⟨l, hm, hcl⟩
    · decide
    · clear e hc hj hs
      induction hl with
      | nil => simp at hm
      | cons h _ ih =>
        rcases List.mem_cons.mp hm with rfl | hm
        · exact (h.1 c hcl).2
        · exact ih hm

/-- The data sets of the file are read one by one. -/
theorem readFile_sets (name : Text) (toStr : ToString) (rnd : ℚ → ℚ) (hp : Prints toStr rnd) (header : List Text) (data : List (Text × Series)) (hh : ∀ l ∈ header, Clean l)
    (hd : ∀ p ∈ data, Clean p.1) :
    readFile name (writeSets toStr header data) = (do let gs ← (setParts toStr 0 (data.map Prod.snd)).mapM graphRows; .ok (graphSeries name 0 gs)) := by
  obtain ⟨e, he⟩ := readPlain_sets name toStr header data hh hd
  unfold readFile
  rw [he]
  simp only
  unfold readXvg splitSep writeSets
  have hs := split_safe (joinLines (preamble header data)) (safe_lines _ (preamble_safe header data hh hd).1) [] (dataSets toStr 0 (data.map Prod.snd))
  unfold preamble at hs
  rw [hs, split_sets toStr (toStr_noAt toStr rnd hp)]
  rfl

theorem setParts_rows (toStr : ToString) (rnd : ℚ → ℚ) (hp : Prints toStr rnd) : ∀ (ss : List Series) (i : ℕ), (∀ s ∈ ss, s ≠ []) →
    (setParts toStr i ss).mapM graphRows = .ok (ss.map fun s => s.map fun p => [.num (rnd p.1), .num (rnd p.2)]) := by
  intro ss
  induction ss with
  | nil => intro i _; rfl
  | cons s ss ih =>
    intro i h
    rw [setParts, List.mapM_cons, graphRows_set toStr rnd hp i s (h s (by simp)), ih (i + 1) fun t ht => h t (by simp [ht])]
    rfl

theorem graphSeries_sets (name : Text) (rnd : ℚ → ℚ) : ∀ (ss : List Series) (n : ℕ), (∀ s ∈ ss, s ≠ []) →
    graphSeries name n (ss.map fun s => s.map fun p => [.num (rnd p.1), .num (rnd p.2)]) =
      (ss.zipIdx n).map fun q => ⟨name ++ '.' :: decimal (q.2 + 1), q.1.map fun p => (.num (rnd p.1), .num (rnd p.2))⟩ := by
  intro ss
  induction ss with
  | nil => intro n _; rfl
  | cons s ss ih =>
    intro n h
    rw [List.map_cons, graphSeries]
    have hw : ((s.map fun p => [Value.num (rnd p.1), Value.num (rnd p.2)]).headD []).length = 2 := by
      cases s with
      | nil => exact absurd rfl (h [] (by simp))
      | cons p s => rfl
    simp only [hw, Nat.reduceSub]
    rw [ih (n + 1) fun t ht => h t (by simp [ht]), List.zipIdx_cons, List.map_cons]
    congr 1
    simp only [List.range_succ, List.range_zero, List.nil_append, List.map_cons, List.map_nil]
    unfold getSeries
    simp only [List.map_map, Nat.zero_add, Nat.add_zero]
    congr 2
    rw [List.filter_eq_self.mpr]
    · rfl
    · intro q hq
      obtain ⟨p, -, rfl⟩ := List.mem_map.mp hq
      simp

theorem setParts_empty (toStr : ToString) (rnd : ℚ → ℚ) (hp : Prints toStr rnd) : ∀ (ss : List Series) (i : ℕ), [] ∈ ss → ∃ e, (setParts toStr i ss).mapM graphRows = .error e := by
  intro ss
  induction ss with
  | nil => intro i h; simp at h
  | cons s ss ih =>
    intro i h
    rw [setParts, List.mapM_cons]
    cases hb : graphRows (setPart toStr i s (decide (ss = []))) with
    | error e => exact ⟨e, rfl⟩
    | ok v =>
      rcases List.mem_cons.mp h with rfl | h
      · obtain ⟨e, he⟩ := graphRows_empty toStr rnd hp i (decide (ss = []))
        rw [he] at hb
        cases hb
      · obtain ⟨e, he⟩ := ih (i + 1) h
        rw [he]
        exact ⟨e, rfl⟩

theorem seriesHeader_clean (date version dir : Text) (names : List Text) (h1 : Clean date) (h2 : Clean version) (h3 : Clean dir) (hn : ∀ n ∈ names, Clean n) :
    ∀ l ∈ seriesHeader date version dir names, Clean l := by
  have happ : ∀ a b : Text, Clean a → Clean b → Clean (a ++ b) := by
    intro a b ha hb c hc
    rcases List.mem_append.mp hc with hc | hc
    · exact ha c hc
    · exact hb c hc
  unfold seriesHeader
  intro l hl
  simp only [List.mem_append, List.mem_cons, List.mem_map, List.not_mem_nil, or_false] at hl
  rcases hl with ((rfl | rfl | rfl | rfl | rfl | rfl | rfl | rfl) | ⟨n, hm, rfl⟩) | rfl | rfl
  · unfold Clean; decide
  · unfold Clean; decide
  · unfold Clean; decide
  · exact happ _ _ (by unfold Clean; decide) h1
  · exact happ _ _ (by unfold Clean; decide) h2
  · unfold Clean; decide
  · exact happ _ _ (happ _ _ (by unfold Clean; decide) h3) (by unfold Clean; decide)
  · unfold Clean; decide
  · exact happ _ _ (happ _ _ (by unfold Clean; decide) (hn n hm)) (by unfold Clean; decide)
  · unfold Clean; decide
  · unfold Clean; decide

theorem fitHeader_clean (date version lims outLims dir : Text) (names : List Text) (h1 : Clean date) (h2 : Clean version) (h3 : Clean lims) (h4 : Clean outLims) (h5 : Clean dir)
    (hn : ∀ n ∈ names, Clean n) : ∀ l ∈ fitHeader date version lims outLims dir names, Clean l := by
  have happ : ∀ a b : Text, Clean a → Clean b → Clean (a ++ b) := by
    intro a b ha hb c hc
    rcases List.mem_append.mp hc with hc | hc
    · exact ha c hc
    · exact hb c hc
  unfold fitHeader
  intro l hl
  simp only [List.mem_append, List.mem_cons, List.mem_map, List.not_mem_nil, or_false] at hl
  rcases hl with ((rfl | rfl | rfl | rfl | rfl | rfl | rfl | rfl | rfl | rfl | rfl | rfl) | ⟨n, hm, rfl⟩) | rfl | rfl
  · unfold Clean; decide
  · unfold Clean; decide
  · unfold Clean; decide
  · exact happ _ _ (by unfold Clean; decide) h1
  · exact happ _ _ (by unfold Clean; decide) h2
  · unfold Clean; decide
  · unfold Clean; decide
  · exact happ _ _ (by unfold Clean; decide) h3
  · exact happ _ _ (by unfold Clean; decide) h4
  · unfold Clean; decide
  · exact happ _ _ (happ _ _ (by unfold Clean; decide) h5) (by unfold Clean; decide)
  · unfold Clean; decide
  · exact happ _ _ (happ _ _ (by unfold Clean; decide) (hn n hm)) (by unfold Clean; decide)
  · unfold Clean; decide
  · unfold Clean; decide

/-- **C98.** If no series is empty, the file written by view or fit is read back without warning as the same series in the same order, named after the file and numbered from one,
with the values as they were printed. (Missing: empty series, see `C98_empty_counterexample`.) -/
theorem C98_read_back_partial (toStr : ToString) (rnd : ℚ → ℚ) (hp : Prints toStr rnd) (date version lims outLims dir : Text) (data : List (Text × Series)) (path : Text)
    (fs : Text → Option Text) (h1 : Clean date) (h2 : Clean version) (h3 : Clean lims) (h4 : Clean outLims) (h5 : Clean dir) (hn : ∀ p ∈ data, Clean p.1) (hne : ∀ p ∈ data, p.2 ≠ [])
    (hfs : fs path = some (writeSeries toStr date version dir data) ∨ fs path = some (writeFits toStr date version lims outLims dir data)) :
    (readSpreading fs [path]).2 = [] ∧ (readSpreading fs [path]).1.length = data.length ∧
    ∀ i (hi : i < data.length), (readSpreading fs [path]).1[i]? =
      some ⟨path ++ '.' :: decimal (i + 1), data[i].2.map fun p => (.num (rnd p.1), .num (rnd p.2))⟩ := by
  have key : readSpreading fs [path] = ((data.map Prod.snd).zipIdx.map fun q => ⟨path ++ '.' :: decimal (q.2 + 1), q.1.map fun p => (.num (rnd p.1), .num (rnd p.2))⟩, []) := by
    have hall : ∀ s ∈ data.map Prod.snd, s ≠ [] := by
      intro s hs
      obtain ⟨p, hp', rfl⟩ := List.mem_map.mp hs
      exact hne p hp'
    have hnames : ∀ n ∈ data.map Prod.fst, Clean n := by
      intro s hs
      obtain ⟨p, hp', rfl⟩ := List.mem_map.mp hs
      exact hn p hp'
    have hall' : ∀ header, (∀ l ∈ header, Clean l) → fs path = some (writeSets toStr header data) → readSpreading fs [path] =
        ((data.map Prod.snd).zipIdx.map fun q => ⟨path ++ '.' :: decimal (q.2 + 1), q.1.map fun p => (.num (rnd p.1), .num (rnd p.2))⟩, []) := by
      intro header hh hf
      rw [readSpreading, hf]
      simp only [Option.elim_some]
      rw [readFile_sets path toStr rnd hp header data hh hn, setParts_rows toStr rnd hp _ 0 hall, Gmx.ok_bind, graphSeries_sets path rnd _ 0 hall]
      simp only [readSpreading, List.append_nil]
    rcases hfs with h | h
    · exact hall' _ (seriesHeader_clean date version dir _ h1 h2 h5 hnames) h
    · exact hall' _ (fitHeader_clean date version lims outLims dir _ h1 h2 h3 h4 h5 hnames) h
  rw [key]
  refine ⟨rfl, by simp, ?_⟩
  intro i hi
  simp [List.getElem?_eq_getElem hi]

/-- **C98, several files.** Files are read one by one in the order given; a file that cannot be opened is warned about, gives no series and does not change what is read from the
others. -/
theorem C98_several_files (fs : Text → Option Text) (files : List Text) :
    (readSpreading fs files).1 = files.flatMap (fun f => (readSpreading fs [f]).1) ∧ (readSpreading fs files).2 = files.flatMap (fun f => (readSpreading fs [f]).2) ∧
    ∀ f, fs f = none → readSpreading fs [f] = ([], [f]) := by
  refine ⟨?_, ?_, ?_⟩
  · induction files with
    | nil => rfl
    | cons f rest ih =>
      rw [List.flatMap_cons, ← ih]
      simp only [readSpreading]
      generalize (fs f).elim (.error .osError) (readFile f) = r
      rcases r with e | s <;> simp
  · induction files with
    | nil => rfl
    | cons f rest ih =>
      rw [List.flatMap_cons, ← ih]
      simp only [readSpreading]
      generalize (fs f).elim (.error .osError) (readFile f) = r
      rcases r with e | s <;> simp
  · intro f hf
    simp [readSpreading, hf]

example : readSpreading (fun f => if f = "b".toList then some "0 1\n1 2\n".toList else none) ["a".toList, "b".toList] = ([⟨"b.1".toList, [(.num 0, .num 1), (.num 1, .num 2)]⟩], ["a".toList]) := by
  decide +kernel

/-- **C98, counterexample: empty series.** If any of the series is empty, the whole file cannot be read: a warning is printed and all its series are lost. -/
theorem C98_empty_counterexample (toStr : ToString) (rnd : ℚ → ℚ) (hp : Prints toStr rnd) (date version lims outLims dir : Text) (data : List (Text × Series)) (path : Text)
    (fs : Text → Option Text) (h1 : Clean date) (h2 : Clean version) (h3 : Clean lims) (h4 : Clean outLims) (h5 : Clean dir) (hn : ∀ p ∈ data, Clean p.1) (he : ∃ p ∈ data, p.2 = [])
    (hfs : fs path = some (writeSeries toStr date version dir data) ∨ fs path = some (writeFits toStr date version lims outLims dir data)) :
    readSpreading fs [path] = ([], [path]) := by
  have hmem : [] ∈ data.map Prod.snd := by
    obtain ⟨p, hp', h⟩ := he
    exact List.mem_map.mpr ⟨p, hp', h⟩
  have hnames : ∀ n ∈ data.map Prod.fst, Clean n := by
    intro s hs
    obtain ⟨p, hp', rfl⟩ := List.mem_map.mp hs
    exact hn p hp'
  have hall' : ∀ header, (∀ l ∈ header, Clean l) → fs path = some (writeSets toStr header data) → readSpreading fs [path] = ([], [path]) := by
    intro header hh hf
    obtain ⟨e, he⟩ := setParts_empty toStr rnd hp _ 0 hmem
    rw [readSpreading, hf]
    simp only [Option.elim_some]
    rw [readFile_sets path toStr rnd hp header data hh hn, he]
    rfl
  rcases hfs with h | h
  · exact hall' _ (seriesHeader_clean date version dir _ h1 h2 h5 hnames) h
  · exact hall' _ (fitHeader_clean date version lims outLims dir _ h1 h2 h3 h4 h5 hnames) h

/-- Printing with six decimals. -/
def exToString : ToString := fun s => if s = [] then "Series([], )".toList else ['\n'].intercalate (s.map fun p => fixed 6 p.1 ++ ' ' :: fixed 6 p.2)

/-- It is a way of printing. -/
theorem exToString_prints : Prints exToString (rounded 6) := by
  constructor
  · intro s hs
    refine ⟨s.map fun p => fixed 6 p.1 ++ ' ' :: fixed 6 p.2, by unfold exToString; rw [if_neg hs], ?_⟩
    clear hs
    induction s with
    | nil => exact .nil
    | cons p s ih =>
      refine .cons ⟨?_, fixed 6 p.1, fixed 6 p.2, ?_, floatText_fixed (by norm_num) _, floatText_fixed (by norm_num) _⟩ ih
      · intro c hc
        have h : 32 ≤ c.toNat ∧ c.toNat ≤ 57 := by
          rcases List.mem_append.mp hc with h | h
          · have := fixed_chars 6 _ c h; omega
          · rcases List.mem_cons.mp h with rfl | h
            · decide
            · have := fixed_chars 6 _ c h; omega
        refine ⟨Printable.noBreak ⟨by omega, by omega⟩, ?_⟩
        rintro rfl
        exact absurd h.2 (by decide)
      · have hs : ∀ x, ∀ c ∈ fixed 6 x, isSpace c = false := fun x c hc => notSpace_of (by have := fixed_chars 6 x c hc; omega)
        rw [words_cons _ _ (fixed_ne_nil 6 _) (hs _), words_single _ (fixed_ne_nil 6 _) (hs _)]
  · refine ⟨by unfold exToString; decide +kernel, by decide +kernel, "Series([],".toList, by decide +kernel, ?_⟩
    intro v hv
    have := (float?_iff _ _).mpr hv
    rw [show float? "Series([],".toList = none by decide +kernel] at this
    cases this

/-- Two series of the two kinds. -/
def exData : List (Text × Series) := [("a.xvg.1".toList, [(1, 1 / 3), (2, 5)]), ("b.xvg.1".toList, [(0, -1)])]

example : Prints exToString (rounded 6) ∧ (∀ p ∈ exData, Clean p.1) ∧ (∀ p ∈ exData, p.2 ≠ []) ∧ Clean "Mon Jan 1".toList ∧ Clean "/home/user".toList ∧
    ∃ p ∈ exData ++ [("c.xvg.1".toList, [])], p.2 = [] := by
  refine ⟨exToString_prints, ?_, by decide, by unfold Clean; decide, by unfold Clean; decide, ("c.xvg.1".toList, []), by simp, rfl⟩
  unfold Clean; decide

/-! ## The lines of the files -/

/-- A comment, a setting, the end of a set, or a point of the series. -/
def GoodLine (rnd : ℚ → ℚ) (data : List (Text × Series)) (l : Text) : Prop :=
  (∃ t, l = '#' :: t) ∨ (∃ t, l = '@' :: t) ∨ l = ['&'] ∨
    ∃ d ∈ data, ∃ p ∈ d.2, ∃ a b, words l = [a, b] ∧ FloatText a (.num (rnd p.1)) ∧ FloatText b (.num (rnd p.2))

theorem sets_lines (toStr : ToString) (rnd : ℚ → ℚ) (hp : Prints toStr rnd) (data : List (Text × Series)) : ∀ (ss : List Series) (i : ℕ),
    (∀ s ∈ ss, s ≠ [] ∧ s ∈ data.map Prod.snd) → ∀ l ∈ fileLines (dataSets toStr i ss), GoodLine rnd data l := by
  intro ss
  induction ss with
  | nil => intro i _ l hl; simp [dataSets, fileLines, fileLinesAux] at hl
  | cons s ss ih =>
    intro i h l hl
    obtain ⟨hs, hm⟩ := h s (by simp)
    obtain ⟨ls, e, hls⟩ := hp.lines s hs
    have hne : ls ≠ [] := by
      rintro rfl
      exact hs (List.length_eq_zero_iff.mp hls.length_eq)
    have hpt : ∀ l ∈ ls, '\n' ∉ l ∧ GoodLine rnd data l := by
      obtain ⟨d, hd, rfl⟩ := List.mem_map.mp hm
      have key : ∀ (ps : Series) (ls : List Text), List.Forall₂ (fun (p : ℚ × ℚ) l =>
          (∀ c ∈ l, isBreak c = false ∧ c ≠ '@') ∧ ∃ a b, words l = [a, b] ∧ FloatText a (.num (rnd p.1)) ∧ FloatText b (.num (rnd p.2))) ps ls →
          (∀ p ∈ ps, p ∈ d.2) → ∀ l ∈ ls, '\n' ∉ l ∧ GoodLine rnd data l := by
        intro ps ls h
        induction h with
        | nil => simp
        | cons h _ ih =>
          intro hsub l hl
          rcases List.mem_cons.mp hl with rfl | hl
          · refine ⟨fun hc => ?_, .inr (.inr (.inr ⟨d, hd, _, hsub _ (by simp), h.2⟩))⟩
            have := (h.1 _ hc).1
            exact absurd this (by decide)
          · exact ih (fun p hp => hsub p (by simp [hp])) l hl
      exact key d.2 ls hls fun p hp => hp
    have hj : target ++ setPart toStr i s (decide (ss = [])) =
        joinLines (["@target G0.S".toList ++ decimal i, "@type xy".toList] ++ ls ++ (if decide (ss = []) then [] else [['&']])) := by
      rw [setPart_lines toStr i s _ ls hne e, joinLines_append, joinLines_append, joinLines_append, joinLines_append]
      have : "@target G0.S".toList = target ++ "G0.S".toList := rfl
      rw [this]
      simp [joinLines]
    rw [dataSets_cons, ← List.append_assoc, hj, fileLines_join] at hl
    · rcases List.mem_append.mp hl with hl | hl
      · rcases List.mem_append.mp hl with hl | hl
        · rcases List.mem_append.mp hl with hl | hl
          · simp only [List.mem_cons, List.not_mem_nil, or_false] at hl
            rcases hl with rfl | rfl
            · exact .inr (.inl ⟨"target G0.S".toList ++ decimal i, rfl⟩)
            · exact .inr (.inl ⟨"type xy".toList, rfl⟩)
          · exact (hpt l hl).2
        · split at hl
          · simp at hl
          · rw [List.mem_singleton] at hl
            exact .inr (.inr (.inl hl))
      · exact ih (i + 1) (fun t ht => h t (by simp [ht])) l hl
    · intro l hl
      rcases List.mem_append.mp hl with hl | hl
      · rcases List.mem_append.mp hl with hl | hl
        · simp only [List.mem_cons, List.not_mem_nil, or_false] at hl
          rcases hl with rfl | rfl
          · rw [List.mem_append, not_or]
            refine ⟨by decide, fun hc => ?_⟩
            have := (decimal_safe _ _ hc).2
            exact absurd this (by decide)
          · decide
        · exact (hpt l hl).1
      · split at hl
        · simp at hl
        · rw [List.mem_singleton] at hl
          subst hl
          decide

/-- **C98.** Every line of a file written by view or fit is a comment, a setting, the end of a set or a point of one of the series: nothing else that
a program reading Grace files could take for data.  The comments name every series. -/
theorem C98_lines_partial (toStr : ToString) (rnd : ℚ → ℚ) (hp : Prints toStr rnd) (date version lims outLims dir : Text) (data : List (Text × Series))
    (h1 : Clean date) (h2 : Clean version) (h3 : Clean lims) (h4 : Clean outLims) (h5 : Clean dir) (hn : ∀ p ∈ data, Clean p.1) (hne : ∀ p ∈ data, p.2 ≠ [])
    (file : Text) (hfile : file = writeSeries toStr date version dir data ∨ file = writeFits toStr date version lims outLims dir data) :
    (∀ l ∈ fileLines file, GoodLine rnd data l) ∧ ∀ p ∈ data, "#   '".toList ++ p.1 ++ "'".toList ∈ fileLines file := by
  have hnames : ∀ n ∈ data.map Prod.fst, Clean n := by
    intro n hn'
    obtain ⟨p, hp', rfl⟩ := List.mem_map.mp hn'
    exact hn p hp'
  have key : ∀ header : List Text, (∀ l ∈ header, Clean l) → (∀ l ∈ header, ∃ t, l = '#' :: t) →
      (∀ p ∈ data, "#   '".toList ++ p.1 ++ "'".toList ∈ header) →
      (∀ l ∈ fileLines (writeSets toStr header data), GoodLine rnd data l) ∧
        ∀ p ∈ data, "#   '".toList ++ p.1 ++ "'".toList ∈ fileLines (writeSets toStr header data) := by
    intro header hc hh hnm
    have hf : fileLines (writeSets toStr header data) = preamble header data ++ fileLines (dataSets toStr 0 (data.map Prod.snd)) :=
      fileLines_join _ _ (preamble_safe header data hc hn).2
    rw [hf]
    constructor
    · intro l hl
      rcases List.mem_append.mp hl with hl | hl
      · unfold preamble at hl
        rcases List.mem_append.mp hl with hl | hl
        · exact .inl (hh l hl)
        · rcases List.mem_cons.mp hl with rfl | hl
          · exact .inr (.inl ⟨"with g0".toList, rfl⟩)
          · obtain ⟨p, -, rfl⟩ := List.mem_map.mp hl
            exact .inr (.inl ⟨"    s".toList ++ decimal p.2 ++ " comment \"".toList ++ p.1.1 ++ "\"".toList, rfl⟩)
      · refine sets_lines toStr rnd hp data _ 0 ?_ l hl
        intro s hs
        obtain ⟨p, hp', rfl⟩ := List.mem_map.mp hs
        exact ⟨hne p hp', hs⟩
    · intro p hp'
      rw [List.mem_append]
      left
      unfold preamble
      rw [List.mem_append]
      exact .inl (hnm p hp')
  rcases hfile with rfl | rfl
  · refine key _ (seriesHeader_clean date version dir _ h1 h2 h5 hnames) ?_ ?_
    · intro l hl
      unfold seriesHeader at hl
      simp only [List.mem_append, List.mem_cons, List.mem_map, List.not_mem_nil, or_false] at hl
      rcases hl with ((rfl | rfl | rfl | rfl | rfl | rfl | rfl | rfl) | ⟨n, hm, rfl⟩) | rfl | rfl <;> exact ⟨_, rfl⟩
    · intro p hp'
      unfold seriesHeader
      simp only [List.mem_append]
      exact .inl (.inr (List.mem_map.mpr ⟨p.1, List.mem_map_of_mem hp', rfl⟩))
  · refine key _ (fitHeader_clean date version lims outLims dir _ h1 h2 h3 h4 h5 hnames) ?_ ?_
    · intro l hl
      unfold fitHeader at hl
      simp only [List.mem_append, List.mem_cons, List.mem_map, List.not_mem_nil, or_false] at hl
      rcases hl with ((rfl | rfl | rfl | rfl | rfl | rfl | rfl | rfl | rfl | rfl | rfl | rfl) | ⟨n, hm, rfl⟩) | rfl | rfl <;> exact ⟨_, rfl⟩
    · intro p hp'
      unfold fitHeader
      simp only [List.mem_append]
      exact .inl (.inr (List.mem_map.mpr ⟨p.1, List.mem_map_of_mem hp', rfl⟩))

end Strata.SpreadingText
