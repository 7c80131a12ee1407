import Verif.Spec.Grace
import Verif.Props.SpreadingText
import Verif.Props.Layout
/-! # C149: Grace files -/
namespace Strata.Grace
open Strata Strata.Files Strata.PyText Strata.Cli Strata.Layout Strata.SpreadingText

theorem prefix_line {p a b : Text} (hp : '\n' ∉ p) (h : p <+: a ++ '\n' :: b) : p <+: a := by
  induction p generalizing a with
  | nil => exact List.nil_prefix
  | cons c p ih =>
    rw [List.mem_cons, not_or] at hp
    cases a with
    | nil =>
      rw [List.nil_append, List.cons_prefix_cons] at h
      exact absurd h.1.symm hp.1
    | cons d a =>
      rw [List.cons_append, List.cons_prefix_cons] at h
      rw [List.cons_prefix_cons]
      exact ⟨h.1, ih hp.2 h.2⟩

theorem target_noline : '\n' ∉ target := by decide

theorem split_line (l : Text) (hl : ¬ target <:+: l) : ∀ cur rest,
    splitAux target cur 0 (l ++ '\n' :: rest) = splitAux target ('\n' :: (l.reverse ++ cur)) 0 rest := by
  induction l with
  | nil =>
    intro cur rest
    rw [List.nil_append, splitAux, if_neg]
    · rw [List.reverse_nil, List.nil_append]
    · intro h
      rw [List.isPrefixOf_iff_prefix] at h
      have := prefix_line (a := []) target_noline h
      exact absurd (List.prefix_nil.mp this) (by decide)
  | cons c l ih =>
    intro cur rest
    rw [List.cons_append, splitAux, if_neg, ih (fun h => hl (h.trans (List.infix_cons (List.infix_refl _))))]
    · simp
    · intro h
      rw [List.isPrefixOf_iff_prefix] at h
      exact hl ((prefix_line (a := c :: l) target_noline h).isInfix)

theorem split_lines (ls : List Text) (hl : ∀ l ∈ ls, ¬ target <:+: l) : ∀ cur rest,
    splitAux target cur 0 (joinLines ls ++ rest) = splitAux target ((joinLines ls).reverse ++ cur) 0 rest := by
  induction ls with
  | nil => intro cur rest; rfl
  | cons l ls ih =>
    intro cur rest
    have e : joinLines (l :: ls) = l ++ '\n' :: joinLines ls := by simp [joinLines]
    rw [e, List.append_assoc, List.cons_append, split_line l (hl l (by simp)), ih fun m hm => hl m (by simp [hm])]
    simp

/-- The text of one set after its key word. -/
def part (d : DataSet) : Text := joinLines (d.name :: d.lines)

theorem split_sets' (sets : List DataSet) (h : ∀ d ∈ sets, ∀ l ∈ d.name :: d.lines, ¬ target <:+: l) : ∀ cur,
    splitAux target cur 0 (sets.flatMap fun d => target ++ part d) = cur.reverse :: sets.map part := by
  induction sets with
  | nil => intro cur; rfl
  | cons d sets ih =>
    intro cur
    have h1 := split_lines (d.name :: d.lines) (h d (by simp)) [] (sets.flatMap fun d => target ++ part d)
    rw [List.flatMap_cons, List.append_assoc, split_target]
    unfold part at h1 ih ⊢
    rw [h1, ih fun e he => h e (by simp [he])]
    simp

theorem text_eq (head : List Text) (sets : List DataSet) :
    graceText head sets = joinLines head ++ sets.flatMap fun d => target ++ part d := by
  unfold graceText graceLines part joinLines
  rw [List.flatMap_append]
  congr 1
  induction sets with
  | nil => rfl
  | cons d sets ih =>
    rw [List.flatMap_cons, List.flatMap_append, ih, List.flatMap_cons, List.flatMap_cons, List.flatMap_cons]
    have : "@target ".toList = target := rfl
    rw [this]
    simp only [List.append_assoc]

theorem readXvg_text (path : Text) (head : List Text) (sets : List DataSet) (hh : ∀ l ∈ head, Plain l)
    (hd : ∀ d ∈ sets, ∀ l ∈ d.name :: d.lines, Plain l) :
    readXvg path (graceText head sets) = (do let gs ← (sets.map part).mapM graphRows; .ok (graphSeries path 0 gs)) := by
  unfold readXvg splitSep
  rw [text_eq, split_lines head (fun l hl => (hh l hl).2), split_sets' sets fun d h l hl => (hd d h l hl).2]
  rfl

/-- The characters of a number: no comment sign, nothing that begins or ends a set. -/
def Ordinary (c : Char) : Prop := c ≠ '@' ∧ c ≠ '#' ∧ c ≠ '&'

theorem digits_ordinary {s : Text} {ds : List ℕ} (h : Digits s ds) : ∀ c ∈ s, Ordinary c := by
  have hd : ∀ d : ℕ, d < 10 → Ordinary (Nat.digitChar d) := by
    intro d hd
    unfold Ordinary
    interval_cases d <;> decide
  induction h with
  | one d h =>
    intro c hc
    rw [List.mem_singleton] at hc
    subst hc; exact hd d h
  | more d s ds h _ ih =>
    intro c hc
    rcases List.mem_cons.mp hc with rfl | hc
    · exact hd d h
    · exact ih c hc
  | underscore d s ds h _ ih =>
    intro c hc
    rcases List.mem_cons.mp hc with rfl | hc
    · exact hd d h
    · rcases List.mem_cons.mp hc with rfl | hc
      · unfold Ordinary; decide
      · exact ih c hc

theorem sameLetters_ordinary {s t : Text} (h : SameLetters s t) (ht : ∀ d ∈ t, Ordinary d ∧ Ordinary d.toUpper) :
    ∀ c ∈ s, Ordinary c := by
  unfold SameLetters at h
  induction h with
  | nil => simp
  | cons h _ ih =>
    intro c hc
    rcases List.mem_cons.mp hc with rfl | hc
    · rcases h with rfl | rfl
      · exact (ht _ (by simp)).1
      · exact (ht _ (by simp)).2
    · exact ih (fun d hd => ht d (by simp [hd])) c hc

theorem sign_ordinary {s : Text} {k : ℤ} (h : Cli.Sign s k) : ∀ c ∈ s, Ordinary c := by
  unfold Ordinary
  cases h <;> decide

theorem floatText_chars {w : Text} {v : Value} (h : FloatText w v) : ∀ c ∈ w, Ordinary c := by
  have hblank : ∀ a : Text, Cli.Blank a → ∀ c ∈ a, Ordinary c := by
    intro a ha c hc
    have := ha c hc
    refine ⟨?_, ?_, ?_⟩ <;> rintro rfl <;> exact absurd this (by decide)
  have hopt : ∀ (a : Text) (ds : List ℕ), OptDigits a ds → ∀ c ∈ a, Ordinary c := by
    intro a ds h
    rcases h with ⟨rfl, -⟩ | h
    · simp
    · exact digits_ordinary h
  obtain ⟨a, sg, body, b, k, u, rfl, ha, hb, hs, hl, -⟩ := h
  intro c hc
  simp only [List.mem_append] at hc
  rcases hc with ((hc | hc) | hc) | hc
  · exact hblank a ha c hc
  · exact sign_ordinary hs c hc
  · cases hl with
    | inf _ h => exact sameLetters_ordinary h (by unfold Ordinary; decide) c hc
    | infinity _ h => exact sameLetters_ordinary h (by unfold Ordinary; decide) c hc
    | nan _ h => exact sameLetters_ordinary h (by unfold Ordinary; decide) c hc
    | decimal m x ds after e hm hx =>
      rcases List.mem_append.mp hc with hc | hc
      · rcases hm with ⟨h, -⟩ | ⟨p, q, dp, dq, rfl, hp, hq, -⟩
        · exact digits_ordinary h c hc
        · rcases List.mem_append.mp hc with hc | hc
          · exact hopt p dp hp c hc
          · rcases List.mem_cons.mp hc with rfl | hc
            · unfold Ordinary; decide
            · exact hopt q dq hq c hc
      · rcases hx with ⟨rfl, -⟩ | ⟨d, sg', q, k', ds', hd, rfl, hs', hq, -⟩
        · simp at hc
        · rcases List.mem_cons.mp hc with rfl | hc
          · rcases hd with rfl | rfl <;> (unfold Ordinary; decide)
          · rcases List.mem_append.mp hc with hc | hc
            · exact sign_ordinary hs' c hc
            · exact digits_ordinary hq c hc
  · exact hblank b hb c hc

theorem remark_noBreak {l : Text} (h : Remark l) : ∀ c ∈ l, isBreak c = false := fun c hc => (noBreak_of (h c hc)).1

theorem remark_noLine {l : Text} (h : Remark l) : '\n' ∉ l := fun hc => (noBreak_of (h _ hc)).2.1 rfl

/-- Which lines of a set are looked at. -/
def kept (l : Text) : Bool := !(l.head? = some '@') && decide (l ≠ ['&'])

theorem holds_ordinary {ws : List Text} {l : Text} (h : Holds ws l) (hw : ∀ w ∈ ws, ∀ c ∈ w, Ordinary c) : ∀ c ∈ l, Ordinary c := by
  have hb : ∀ p : Text, Layout.Blank p → ∀ c ∈ p, Ordinary c := by
    intro p hp c hc
    rcases hp c hc with rfl | rfl <;> (unfold Ordinary; decide)
  induction h with
  | nothing p hp => exact hb p hp
  | last p w hp =>
    intro c hc
    rcases List.mem_append.mp hc with hc | hc
    · exact hb p hp c hc
    · exact hw w (by simp) c hc
  | next p w d ws rest hp hd _ ih =>
    intro c hc
    simp only [List.mem_append, List.mem_cons] at hc
    rcases hc with hc | hc | rfl | hc
    · exact hb p hp c hc
    · exact hw w (by simp) c hc
    · rcases hd with rfl | rfl <;> (unfold Ordinary; decide)
    · exact ih (fun w h => hw w (by simp [h])) c hc

theorem forall₂_left {ws : List Text} {vs : List Value} (h : List.Forall₂ FloatText ws vs) : ∀ w ∈ ws, ∃ v, FloatText w v := by
  induction h with
  | nil => simp
  | cons h _ ih =>
    intro w hw
    rcases List.mem_cons.mp hw with rfl | hw
    · exact ⟨_, h⟩
    · exact ih w hw

theorem numbers_row {ws : List Text} {vs : List Value} (h : List.Forall₂ FloatText ws vs) : numbers ws = .ok vs := by
  unfold numbers
  induction h with
  | nil => rfl
  | cons h _ ih =>
    rw [List.mapM_cons, ih, (float?_iff _ _).mpr h]
    rfl

theorem rowLine_reads {vs : List Value} {l : Text} (h : RowLine vs l) : kept l = true ∧ numbers (words l) = .ok vs := by
  obtain ⟨ws, hh, hf, hw⟩ := h
  have ho := holds_ordinary hh fun w hw' c hc => by
    obtain ⟨v, hv⟩ := forall₂_left hf w hw'
    exact floatText_chars hv c hc
  refine ⟨?_, ?_⟩
  · unfold kept
    rw [Bool.and_eq_true]
    constructor
    · rw [Bool.not_eq_true', decide_eq_false_iff_not]
      intro h0
      exact (ho '@' (List.mem_of_mem_head? h0)).1 rfl
    · rw [decide_eq_true_iff]
      rintro rfl
      exact (ho '&' (by simp)).2.2 rfl
  · rw [(words_printed hh hw).1]
    exact numbers_row hf

theorem otherLine_skipped {l : Text} (h : OtherLine l) : kept l = false := by
  rcases h with rfl | ⟨t, rfl⟩
  · rfl
  · rfl

theorem lines_read {items : List (Option (List Value))} {ls : List Text} (h : List.Forall₂ SetLine items ls) :
    (ls.filter kept).mapM (fun l => numbers (words l)) = .ok (items.filterMap id) := by
  induction h with
  | nil => rfl
  | cons h _ ih =>
    rename_i item l _ _ _
    cases item with
    | some vs =>
      obtain ⟨h1, h2⟩ := rowLine_reads h
      rw [List.filter_cons_of_pos h1, List.mapM_cons, h2, ih]
      rfl
    | none =>
      rw [List.filter_cons_of_neg (by rw [otherLine_skipped h]; decide), ih]
      rfl

theorem tableWidth_rows {m : ℕ} {rows : List (List Value)} (hne : rows ≠ []) (hm : ∀ r ∈ rows, r.length = m) : tableWidth rows = .ok m := by
  cases rows with
  | nil => exact absurd rfl hne
  | cons r rs =>
    have h0 := hm r (by simp)
    rw [tableWidth, if_pos, h0]
    rw [List.all_eq_true]
    intro q hq
    rw [decide_eq_true_iff, h0]
    exact hm q (by simp [hq])

theorem part_lines {d : DataSet} (hd : ∀ l ∈ d.name :: d.lines, Plain l) : (splitlines (part d)).drop 1 = d.lines := by
  unfold part joinLines
  rw [splitlines_lines _ fun l hl => remark_noBreak (hd l hl).1]
  rfl

theorem graphRows_part {d : DataSet} {m : ℕ} {rows : List (List Value)} (h : d.Has m rows) (hd : ∀ l ∈ d.name :: d.lines, Plain l) :
    graphRows (part d) = .ok rows := by
  obtain ⟨items, h1, h2⟩ := h.lines
  have h3 := lines_read h1
  unfold kept at h3
  unfold graphRows
  rw [part_lines hd, h3, Gmx.ok_bind, h2, tableWidth_rows h.some h.width, Gmx.ok_bind, if_neg (by have := h.pos; omega)]

theorem graphs_series (path : Text) : ∀ (ms : List (ℕ × List (List Value))) (n : ℕ), (∀ q ∈ ms, q.2 ≠ [] ∧ ∀ r ∈ q.2, r.length = q.1) →
    graphSeries path n (ms.map Prod.snd) =
      ((ms.flatMap fun q => curves q.1 q.2).zipIdx n).map fun q => ⟨path ++ '.' :: decimal (q.2 + 1), q.1⟩ := by
  intro ms
  induction ms with
  | nil => intro n _; rfl
  | cons q ms ih =>
    intro n h
    obtain ⟨h1, h2⟩ := h q (by simp)
    have hw : (q.2.headD []).length = q.1 := by
      cases hq : q.2 with
      | nil => exact absurd hq h1
      | cons r rs => exact h2 r (by rw [hq]; simp)
    rw [List.map_cons, graphSeries, hw]
    rw [ih _ fun q hq => h q (by simp [hq]), List.flatMap_cons, List.zipIdx_append, List.map_append]
    have hlen : (curves q.1 q.2).length = q.1 - 1 := by simp [curves]
    rw [hlen]
    congr 1
    refine List.ext_getElem (by simp [curves]) ?_
    intro i i1 i2
    simp [curves, getSeries]

/-- A file with a line that begins with `@` is not a table of numbers. -/
theorem readPlain_fails (path : Text) (ls : List Text) (hl : ∀ l ∈ ls, '\n' ∉ l) (l : Text) (hm : ('@' :: l) ∈ ls) :
    ∃ e, readPlain path (joinLines ls) = .error e := by
  unfold readPlain
  have hf := fileLines_join ls [] hl
  rw [List.append_nil, show fileLines [] = [] from rfl, List.append_nil] at hf
  rw [hf]
  have hw : ∃ w ws, words (('@' :: l).takeWhile (· ≠ '#')) = ('@' :: w) :: ws := by
    rw [List.takeWhile_cons_of_pos (by decide)]
    generalize l.takeWhile (· ≠ '#') = t
    have key : ∀ (t cur : Text), ∃ w ws, wordsAux (cur ++ ['@']) t = ('@' :: w) :: ws := by
      intro t
      induction t with
      | nil => intro cur; exact ⟨cur.reverse, [], by simp [wordsAux]⟩
      | cons c t ih =>
        intro cur
        rw [wordsAux]
        by_cases hc : isSpace c = true
        · rw [if_pos hc, if_neg (by simp)]
          exact ⟨cur.reverse, wordsAux [] t, by simp⟩
        · rw [if_neg hc]
          exact ih (c :: cur)
    exact key t []
  obtain ⟨w, ws, hw⟩ := hw
  have hin : ('@' :: w) :: ws ∈ (ls.map fun l => words (l.takeWhile (· ≠ '#'))).filter (· ≠ []) := by
    rw [List.mem_filter]
    exact ⟨List.mem_map.mpr ⟨_, hm, hw⟩, by simp⟩
  have hnum : ∃ e, numbers (('@' :: w) :: ws) = .error e := by
    refine mapM_err _ (a := '@' :: w) (e := .valueError) _ (by simp) ?_
    cases hf : float? ('@' :: w) with
    | none => rfl
    | some v => exact absurd rfl (floatText_chars ((float?_iff _ _).mp hf) '@' (by simp)).1
  obtain ⟨e, he⟩ := hnum
  obtain ⟨e', he'⟩ := mapM_err numbers _ hin he
  exact ⟨e', by rw [he']; rfl⟩

theorem readFile_text (path : Text) (head : List Text) (sets : List DataSet) (hne : sets ≠ []) (hh : ∀ l ∈ head, Plain l)
    (hd : ∀ d ∈ sets, ∀ l ∈ d.name :: d.lines, Plain l) :
    readFile path (graceText head sets) = (do let gs ← (sets.map part).mapM graphRows; .ok (graphSeries path 0 gs)) := by
  have hp : ∃ e, readPlain path (graceText head sets) = .error e := by
    cases sets with
    | nil => exact absurd rfl hne
    | cons d sets =>
      refine readPlain_fails path _ ?_ ("target ".toList ++ d.name) ?_
      · intro l hl
        unfold graceLines at hl
        rcases List.mem_append.mp hl with hl | hl
        · exact remark_noLine (hh l hl).1
        · obtain ⟨e, he, hl⟩ := List.mem_flatMap.mp hl
          rcases List.mem_cons.mp hl with rfl | hl
          · rw [List.mem_append, not_or]
            exact ⟨by decide, remark_noLine (hd e he _ (by simp)).1⟩
          · exact remark_noLine (hd e he l (by simp [hl])).1
      · unfold graceLines
        rw [List.mem_append]
        right
        rw [List.flatMap_cons, List.mem_append]
        left
        rw [List.mem_cons]
        left
        rfl
  obtain ⟨e, he⟩ := hp
  unfold readFile
  rw [he]
  simp only
  exact readXvg_text path head sets hh hd

/-- **C149 (partial).** Every data set of a Grace file is read: whatever the settings before and between the sets, and however the
numbers are spaced, every column after the first of every set becomes a curve of the file, in the order in which they stand, numbered
from one.  Missing: files without a line `@target` (`C149_no_target_counterexample`) and sets with comments or empty lines
(`C149_comment_counterexample`, `C149_blank_counterexample`). -/
theorem C149_grace_partial (fs : Text → Option Text) (path : Text) (head : List Text) (sets : List (DataSet × ℕ × List (List Value)))
    (hfs : fs path = some (graceText head (sets.map Prod.fst))) (hne : sets ≠ []) (hh : ∀ l ∈ head, Plain l)
    (hd : ∀ q ∈ sets, q.1.Has q.2.1 q.2.2 ∧ ∀ l ∈ q.1.name :: q.1.lines, Plain l) :
    readSpreading fs [path] =
      (((sets.flatMap fun q => curves q.2.1 q.2.2).zipIdx).map fun q => ⟨path ++ '.' :: decimal (q.2 + 1), q.1⟩, []) := by
  have hrows : ((sets.map Prod.fst).map part).mapM graphRows = .ok ((sets.map Prod.snd).map Prod.snd) := by
    clear hfs hne
    induction sets with
    | nil => rfl
    | cons q sets ih =>
      obtain ⟨h1, h2⟩ := hd q (by simp)
      rw [List.map_cons, List.map_cons, List.mapM_cons, graphRows_part h1 h2, ih fun q hq => hd q (by simp [hq])]
      rfl
  have hread : readFile path (graceText head (sets.map Prod.fst)) =
      .ok (((sets.flatMap fun q => curves q.2.1 q.2.2).zipIdx).map fun q => ⟨path ++ '.' :: decimal (q.2 + 1), q.1⟩) := by
    rw [readFile_text path head _ (by simpa using hne) hh, hrows, Gmx.ok_bind, graphs_series]
    · rw [List.flatMap_map]
    · intro q hq
      obtain ⟨t, ht, rfl⟩ := List.mem_map.mp hq
      exact ⟨(hd t ht).1.some, (hd t ht).1.width⟩
    · intro d hd'
      obtain ⟨t, ht, rfl⟩ := List.mem_map.mp hd'
      exact (hd t ht).2
  rw [readSpreading, hfs]
  simp only [Option.elim_some]
  rw [hread]
  simp [readSpreading]

/-- **C149, counterexample: no target.** A file with settings but without a line `@target`, as Gromacs writes them, gives no curve at
all, and no warning either. -/
theorem C149_no_target_counterexample (fs : Text → Option Text) (path : Text) (lines : List Text) (l : Text)
    (hfs : fs path = some (graceText lines [])) (hh : ∀ l ∈ lines, Plain l) (hl : ('@' :: l) ∈ lines) :
    readSpreading fs [path] = ([], []) := by
  have e0 : graceText lines [] = joinLines lines := by
    unfold graceText graceLines joinLines
    simp
  obtain ⟨e, he⟩ := readPlain_fails path lines (fun l hl => remark_noLine (hh l hl).1) l hl
  have hx := readXvg_text path lines [] hh (by simp)
  rw [e0] at hx hfs
  rw [readSpreading, hfs]
  simp only [Option.elim_some]
  unfold readFile
  rw [he]
  simp only
  rw [hx]
  rfl

/-- **C149, counterexample: comments.** A line in a set that begins with `#` makes the whole file unreadable: no curve of any set is
returned, and a warning is printed. -/
theorem C149_comment_counterexample (fs : Text → Option Text) (path : Text) (head : List Text) (sets : List DataSet)
    (hfs : fs path = some (graceText head sets)) (hh : ∀ l ∈ head, Plain l) (hd : ∀ d ∈ sets, ∀ l ∈ d.name :: d.lines, Plain l)
    (d : DataSet) (hdm : d ∈ sets) (c : Text) (hc : ('#' :: c) ∈ d.lines) :
    readSpreading fs [path] = ([], [path]) := by
  have hne : sets ≠ [] := List.ne_nil_of_mem hdm
  have hw : ∃ w ws, words ('#' :: c) = ('#' :: w) :: ws := by
    have key : ∀ (t cur : Text), ∃ w ws, wordsAux (cur ++ ['#']) t = ('#' :: w) :: ws := by
      intro t
      induction t with
      | nil => intro cur; exact ⟨cur.reverse, [], by simp [wordsAux]⟩
      | cons c t ih =>
        intro cur
        rw [wordsAux]
        by_cases hc : isSpace c = true
        · rw [if_pos hc, if_neg (by simp)]
          exact ⟨cur.reverse, wordsAux [] t, by simp⟩
        · rw [if_neg hc]
          exact ih (c :: cur)
    exact key c []
  have hg : ∃ e, graphRows (part d) = .error e := by
    obtain ⟨w, ws, hw⟩ := hw
    have hnum : ∃ e, numbers (words ('#' :: c)) = .error e := by
      rw [hw]
      refine mapM_err _ (a := '#' :: w) (e := .valueError) _ (by simp) ?_
      cases hf : float? ('#' :: w) with
      | none => rfl
      | some v => exact absurd rfl (floatText_chars ((float?_iff _ _).mp hf) '#' (by simp)).2.1
    obtain ⟨e, he⟩ := hnum
    unfold graphRows
    rw [part_lines (hd d hdm)]
    have hin : ('#' :: c) ∈ d.lines.filter fun l => !(l.head? = some '@') && decide (l ≠ ['&']) := by
      rw [List.mem_filter]
      exact ⟨hc, by simp⟩
    obtain ⟨e', he'⟩ := mapM_err (fun l => numbers (words l)) _ hin he
    exact ⟨e', by rw [he']; rfl⟩
  obtain ⟨e, he⟩ := hg
  obtain ⟨e', he'⟩ := mapM_err graphRows (sets.map part) (List.mem_map_of_mem hdm) he
  rw [readSpreading, hfs]
  simp only [Option.elim_some]
  rw [readFile_text path head sets hne hh hd, he']
  simp [readSpreading, bind, Except.bind]

/-- **C149, counterexample: empty lines.** An empty line after the numbers of a set makes the whole file unreadable, too. -/
theorem C149_blank_counterexample (fs : Text → Option Text) (path : Text) (head : List Text) (sets : List DataSet)
    (hfs : fs path = some (graceText head sets)) (hh : ∀ l ∈ head, Plain l) (hd : ∀ d ∈ sets, ∀ l ∈ d.name :: d.lines, Plain l)
    (d : DataSet) (hdm : d ∈ sets) (m : ℕ) (rows : List (List Value)) (ls : List Text) (hhas : (DataSet.mk d.name ls).Has m rows)
    (hls : d.lines = ls ++ [[]]) :
    readSpreading fs [path] = ([], [path]) := by
  have hne : sets ≠ [] := List.ne_nil_of_mem hdm
  have hg : ∃ e, graphRows (part d) = .error e := by
    obtain ⟨items, h1, h2⟩ := hhas.lines
    have h3 := lines_read h1
    unfold kept at h3
    simp only at h3
    unfold graphRows
    rw [part_lines (hd d hdm), hls, List.filter_append, List.mapM_append, h3, Gmx.ok_bind]
    have hb : (([[]] : List Text).filter fun l => !(l.head? = some '@') && decide (l ≠ ['&'])).mapM (fun l => numbers (words l)) =
      .ok [[]] := rfl
    rw [hb, h2, Gmx.ok_bind]
    have ht : ∃ e, tableWidth (rows ++ [[]]) = .error e := by
      cases hr : rows with
      | nil => exact absurd hr hhas.some
      | cons r rs =>
        have hr1 := hhas.width r (by rw [hr]; simp)
        have hp := hhas.pos
        rw [List.cons_append, tableWidth, if_neg]
        · exact ⟨_, rfl⟩
        · intro h
          rw [List.all_eq_true] at h
          have := h [] (by simp)
          rw [decide_eq_true_iff, List.length_nil] at this
          omega
    obtain ⟨e, he⟩ := ht
    exact ⟨e, by simp only [pure_bind, he]; rfl⟩
  obtain ⟨e, he⟩ := hg
  obtain ⟨e', he'⟩ := mapM_err graphRows (sets.map part) (List.mem_map_of_mem hdm) he
  rw [readSpreading, hfs]
  simp only [Option.elim_some]
  rw [readFile_text path head sets hne hh hd, he']
  simp [readSpreading, bind, Except.bind]

/-! ## Examples -/

instance (l : Text) : Decidable (Plain l) := inferInstanceAs (Decidable (_ ∧ _))

/-- Two sets as Grace saves them, the second with two curves. -/
def exHead : List Text := ["# Grace project file".toList, "@title \"Drops\"".toList, "@with g0".toList]
def exOne : DataSet := ⟨"G0.S0".toList, ["@type xy".toList, "0 1.5".toList, "\t1  2.5 ".toList, "&".toList]⟩
def exTwo : DataSet := ⟨"G0.S1".toList, ["@type nxy".toList, "0 1 2".toList, "1 nan 3".toList]⟩

example : (∀ l ∈ exHead, Plain l) ∧ (∀ l ∈ exOne.name :: exOne.lines, Plain l) ∧ (∀ l ∈ exTwo.name :: exTwo.lines, Plain l) := by
  refine ⟨?_, ?_, ?_⟩ <;> decide +kernel

theorem exOne_has : exOne.Has 2 [[.num 0, .num (3 / 2)], [.num 1, .num (5 / 2)]] := by
  have hf : ∀ (w : Text) (v : Value), float? w = some v → FloatText w v := fun w v h => (float?_iff w v).mp h
  refine ⟨⟨[none, some [.num 0, .num (3 / 2)], some [.num 1, .num (5 / 2)], none], ?_, rfl⟩, by simp, by simp, by decide⟩
  refine .cons (.inr ⟨"type xy".toList, rfl⟩) (.cons ?_ (.cons ?_ (.cons (.inl rfl) .nil)))
  · refine ⟨["0".toList, "1.5".toList], ?_, .cons (hf _ _ (by decide +kernel)) (.cons (hf _ _ (by decide +kernel)) .nil), ?_⟩
    · exact Holds.next [] "0".toList ' ' _ "1.5".toList (by simp [Layout.Blank]) (.inl rfl) (Holds.last [] "1.5".toList (by simp [Layout.Blank]))
    · unfold Printed; decide +kernel
  · refine ⟨["1".toList, "2.5".toList], ?_, .cons (hf _ _ (by decide +kernel)) (.cons (hf _ _ (by decide +kernel)) .nil), ?_⟩
    · exact Holds.next ['\t'] "1".toList ' ' _ " 2.5 ".toList (by simp [Layout.Blank]) (.inl rfl)
        (Holds.next [' '] "2.5".toList ' ' _ [] (by simp [Layout.Blank]) (.inl rfl) (Holds.nothing [] (by simp [Layout.Blank])))
    · unfold Printed; decide +kernel

example : (readSpreading (fun _ => some (graceText exHead [exOne, exTwo])) ["d.xvg".toList]).1.map (fun s => (String.ofList s.name, s.points)) =
    [("d.xvg.1", [(.num 0, .num (3 / 2)), (.num 1, .num (5 / 2))]), ("d.xvg.2", [(.num 0, .num 1)]), ("d.xvg.3", [(.num 0, .num 2), (.num 1, .num 3)])] := by
  decide +kernel

end Strata.Grace
