import Verif.Spec.Layout
import Verif.Props.Simple
import Verif.Proofs.InterfaceText
/-!
# Tables laid out by hand: C144
-/
namespace Strata.Layout
open Strata Strata.Flow Strata.Average Strata.Bytes Strata.PyText Strata.Files Strata.Gmx Strata.Simple

/-! ## Lines -/

theorem words_blank (p s : Text) (h : Blank p) : words (p ++ s) = words s := by
  induction p with
  | nil => rfl
  | cons c p ih =>
    rw [List.cons_append, ← ih fun d hd => h d (by simp [hd])]
    rcases h c (by simp) with rfl | rfl <;> rfl

theorem printed_of {w : Text} (h : Word w) : Printed w := ⟨h.1, fun c hc => ⟨(h.2 c hc).1, (h.2 c hc).2.1⟩⟩

theorem Printed.notSpace {w : Text} (h : Printed w) : ∀ c ∈ w, isSpace c = false := fun c hc => notSpace_of (h.2 c hc).1

theorem words_sep (w rest : Text) (c : Char) (hc : isSpace c = true) (hw : Printed w) : words (w ++ c :: rest) = w :: words rest := by
  unfold words
  rw [wordsAux_word w hw.notSpace, List.append_nil, wordsAux, hc, if_pos rfl, if_neg (by simpa using hw.1), List.reverse_reverse]

theorem space_of {c : Char} (h : c = ' ' ∨ c = '\t') : isSpace c = true := by
  rcases h with rfl | rfl <;> decide

/-- The words of a line, which a carriage return may end. -/
theorem words_printed {ws : List Text} {l : Text} (h : Holds ws l) (hw : ∀ w ∈ ws, Printed w) : words l = ws ∧ words (l ++ ['\r']) = ws := by
  induction h with
  | nothing p hp =>
    constructor
    · have := words_blank p [] hp; rw [List.append_nil] at this; rw [this]; rfl
    · rw [words_blank p _ hp]; decide
  | last p w hp =>
    have hw' := hw w (by simp)
    constructor
    · rw [words_blank p w hp, words_single w hw'.1 hw'.notSpace]
    · rw [List.append_assoc, words_blank p _ hp, words_sep w [] '\r' (by decide) hw']; rfl
  | next p w c ws rest hp hc _ ih =>
    have hw' := hw w (by simp)
    have ih := ih fun v hv => hw v (by simp [hv])
    constructor
    · rw [words_blank p _ hp, words_sep w rest c (space_of hc) hw', ih.1]
    · rw [List.append_assoc, words_blank p _ hp, List.append_assoc, List.cons_append, words_sep w _ c (space_of hc) hw', ih.2]

theorem words_holds {ws : List Text} {l : Text} (h : Holds ws l) (hw : ∀ w ∈ ws, Word w) : words l = ws ∧ words (l ++ ['\r']) = ws :=
  words_printed h fun w h => printed_of (hw w h)

theorem printed_chars {ws : List Text} {l : Text} (h : Holds ws l) (hw : ∀ w ∈ ws, Printed w) : ∀ c ∈ l, (32 ≤ c.toNat ∧ c.toNat ≤ 126) ∨ c = '\t' := by
  have blank : ∀ p : Text, Blank p → ∀ c ∈ p, (32 ≤ c.toNat ∧ c.toNat ≤ 126) ∨ c = '\t' := by
    intro p hp c hc
    rcases hp c hc with rfl | rfl <;> decide
  have word : ∀ w : Text, Printed w → ∀ c ∈ w, (32 ≤ c.toNat ∧ c.toNat ≤ 126) ∨ c = '\t' := by
    intro w hw c hc
    obtain ⟨h1, h2⟩ := hw.2 c hc
    exact Or.inl ⟨by omega, h2⟩
  induction h with
  | nothing p hp => exact blank p hp
  | last p w hp =>
    intro c hc
    rcases List.mem_append.mp hc with hc | hc
    · exact blank p hp c hc
    · exact word w (hw w (by simp)) c hc
  | next p w d ws rest hp hd _ ih =>
    intro c hc
    simp only [List.mem_append, List.mem_cons] at hc
    rcases hc with hc | hc | rfl | hc
    · exact blank p hp c hc
    · exact word w (hw w (by simp)) c hc
    · rcases hd with rfl | rfl <;> decide
    · exact ih (fun v hv => hw v (by simp [hv])) c hc

/-- Characters of a line of a table: no line ends, no comment sign. -/
theorem holds_chars {ws : List Text} {l : Text} (h : Holds ws l) (hw : ∀ w ∈ ws, Word w) : ∀ c ∈ l, ((32 ≤ c.toNat ∧ c.toNat ≤ 126) ∨ c = '\t') ∧ c ≠ '#' := by
  have blank : ∀ p : Text, Blank p → ∀ c ∈ p, ((32 ≤ c.toNat ∧ c.toNat ≤ 126) ∨ c = '\t') ∧ c ≠ '#' := by
    intro p hp c hc
    rcases hp c hc with rfl | rfl <;> decide
  have word : ∀ w : Text, Word w → ∀ c ∈ w, ((32 ≤ c.toNat ∧ c.toNat ≤ 126) ∨ c = '\t') ∧ c ≠ '#' := by
    intro w hw c hc
    obtain ⟨h1, h2, h3⟩ := hw.2 c hc
    exact ⟨Or.inl ⟨by omega, h2⟩, h3⟩
  induction h with
  | nothing p hp => exact blank p hp
  | last p w hp =>
    intro c hc
    rcases List.mem_append.mp hc with hc | hc
    · exact blank p hp c hc
    · exact word w (hw w (by simp)) c hc
  | next p w d ws rest hp hd _ ih =>
    intro c hc
    simp only [List.mem_append, List.mem_cons] at hc
    rcases hc with hc | hc | rfl | hc
    · exact blank p hp c hc
    · exact word w (hw w (by simp)) c hc
    · rcases hd with rfl | rfl <;> decide
    · exact ih (fun v hv => hw v (by simp [hv])) c hc

theorem noBreak_of {c : Char} (h : (32 ≤ c.toNat ∧ c.toNat ≤ 126) ∨ c = '\t') : isBreak c = false ∧ c ≠ '\n' ∧ c.toNat < 128 := by
  rcases h with h | rfl
  · refine ⟨?_, ?_, by omega⟩
    · simp only [isBreak, Bool.or_eq_false_iff, Bool.and_eq_false_iff, decide_eq_false_iff_not]
      omega
    · rintro rfl
      exact absurd h.1 (by decide)
  · decide

theorem holdsOr_chars {ws : List Text} {l : Text} (h : HoldsOr ws l) (hw : ∀ w ∈ ws, Word w) : ∀ c ∈ l, (32 ≤ c.toNat ∧ c.toNat ≤ 126) ∨ c = '\t' := by
  intro c hc
  rcases h with h | ⟨l', t, rfl, h, ht⟩
  · exact (holds_chars h hw c hc).1
  · simp only [List.mem_append, List.mem_cons] at hc
    rcases hc with hc | rfl | hc
    · exact (holds_chars h hw c hc).1
    · left; decide
    · exact ht c hc

theorem head_chars {ns : List Text} {l : Text} (h : Head ns l) (hw : ∀ w ∈ ns, Word w) : ∀ c ∈ l, (32 ≤ c.toNat ∧ c.toNat ≤ 126) ∨ c = '\t' := by
  intro c hc
  rcases h with h | ⟨t, l', rfl, ht, -, h⟩
  · exact (holds_chars h hw c hc).1
  · simp only [List.mem_append, List.mem_cons] at hc
    rcases hc with hc | rfl | hc
    · exact ht c hc
    · left; decide
    · exact (holds_chars h hw c hc).1

theorem takeWhile_hash {l t : Text} (h : ∀ c ∈ l, c ≠ '#') : (l ++ '#' :: t).takeWhile (· ≠ '#') = l := by
  rw [List.takeWhile_append_of_pos (by intro c hc; simpa using h c hc), List.takeWhile_cons_of_neg (by decide), List.append_nil]

/-- The words of a line of the table outside its comment. -/
theorem dataWords_holds {ws : List Text} {l : Text} (h : HoldsOr ws l) (hw : ∀ w ∈ ws, Word w) : dataWords l = ws ∧ dataWords (l ++ ['\r']) = ws := by
  unfold dataWords
  rcases h with h | ⟨l', t, rfl, h, -⟩
  · have hc := fun c hc => (holds_chars h hw c hc).2
    constructor
    · rw [takeWhile_self l fun c h => by simpa using hc c h]
      exact (words_holds h hw).1
    · rw [takeWhile_self (l ++ ['\r'])]
      · exact (words_holds h hw).2
      · intro c h
        rcases List.mem_append.mp h with h | h
        · simpa using hc c h
        · rw [List.mem_singleton] at h; rw [h]; decide
  · have hc := fun c hc => (holds_chars h hw c hc).2
    rw [List.append_assoc, List.cons_append, takeWhile_hash hc, takeWhile_hash hc]
    exact ⟨(words_holds h hw).1, (words_holds h hw).1⟩

theorem nameWords_head {ns : List Text} {l : Text} (h : Head ns l) (hw : ∀ w ∈ ns, Word w) : nameWords l = ns := by
  unfold nameWords
  rcases h with h | ⟨t, l', rfl, -, ht, h⟩
  · rw [if_neg]
    · exact (words_holds h hw).1
    · intro hc
      exact (holds_chars h hw _ hc).2 rfl
  · rw [if_pos (by simp)]
    have e : (t ++ '#' :: l').dropWhile (· ≠ '#') = '#' :: l' := by
      rw [List.dropWhile_append_of_pos (by intro c hc; simpa using fun e : c = '#' => ht (e ▸ hc)), List.dropWhile_cons_of_neg (by decide)]
    rw [e, List.filter_cons_of_neg (by decide), List.filter_eq_self.mpr]
    · exact (words_holds h hw).1
    · intro c hc
      simpa using (holds_chars h hw c hc).2

/-! ## Files -/

theorem splitlines_ended {ls : List Text} {s : Text} (h : Ended ls s) (hc : ∀ l ∈ ls, ∀ c ∈ l, isBreak c = false) : splitlines s = ls := by
  unfold splitlines
  induction h with
  | nothing => rfl
  | unended l hl =>
    have := linesAux_line l (hc l (by simp)) [] []
    rw [List.append_nil, List.append_nil] at this
    rw [this, linesAux, if_neg (by simpa using hl), List.reverse_reverse]
  | lf l ls s _ ih =>
    rw [linesAux_line l (hc l (by simp)), List.append_nil, linesAux, if_neg (by rintro ⟨h, -⟩; exact absurd h (by decide)),
      if_pos (by decide), List.reverse_reverse, ih fun l hl => hc l (by simp [hl])]
  | crlf l ls s _ ih =>
    rw [linesAux_line l (hc l (by simp)), List.append_nil, linesAux, if_pos ⟨rfl, rfl⟩, linesAux, if_neg (by rintro ⟨h, -⟩; exact absurd h (by decide)),
      if_pos (by decide), List.reverse_reverse, ih fun l hl => hc l (by simp [hl])]

theorem ended_ascii {ls : List Text} {s : Text} (h : Ended ls s) (hc : ∀ l ∈ ls, ∀ c ∈ l, c.toNat < 128) : ∀ c ∈ s, c.toNat < 128 := by
  induction h with
  | nothing => simp
  | unended l hl => exact hc l (by simp)
  | lf l ls s _ ih =>
    intro c h
    simp only [List.mem_append, List.mem_cons] at h
    rcases h with h | rfl | h
    · exact hc l (by simp) c h
    · decide
    · exact ih (fun l hl => hc l (by simp [hl])) c h
  | crlf l ls s _ ih =>
    intro c h
    simp only [List.mem_append, List.mem_cons] at h
    rcases h with h | rfl | rfl | h
    · exact hc l (by simp) c h
    · decide
    · decide
    · exact ih (fun l hl => hc l (by simp [hl])) c h

theorem forall₂_mem {all : List (List Text)} {ls : List Text} (h : List.Forall₂ HoldsOr all ls) : ∀ l ∈ ls, ∃ ws ∈ all, HoldsOr ws l := by
  induction h with
  | nil => simp
  | cons h _ ih =>
    intro l hl
    rcases List.mem_cons.mp hl with rfl | hl
    · exact ⟨_, by simp, h⟩
    · obtain ⟨ws, h1, h2⟩ := ih l hl
      exact ⟨ws, by simp [h1], h2⟩

theorem all_words {rows all : List (List Text)} (hall : all.filter (· ≠ []) = rows) (hr : ∀ row ∈ rows, ∀ w ∈ row, Word w) : ∀ ws ∈ all, ∀ w ∈ ws, Word w := by
  intro ws hws w hw
  refine hr ws ?_ w hw
  rw [← hall, List.mem_filter]
  refine ⟨hws, ?_⟩
  simp only [ne_eq, decide_not, Bool.not_eq_eq_eq_not, Bool.not_true, decide_eq_false_iff_not]
  rintro rfl
  simp at hw

theorem dataWords_rows {all : List (List Text)} {ls : List Text} (h : List.Forall₂ HoldsOr all ls) (hw : ∀ ws ∈ all, ∀ w ∈ ws, Word w) : ls.map dataWords = all := by
  induction h with
  | nil => rfl
  | cons h _ ih => rw [List.map_cons, (dataWords_holds h (hw _ (by simp))).1, ih fun ws hws => hw ws (by simp [hws])]

/-- The canonical layout is a layout. -/
theorem holds_joined (ws : List Text) : Holds ws ([' '].intercalate ws) := by
  rw [← joinSp_eq]
  induction ws with
  | nil => exact Holds.nothing [] (by simp [Blank])
  | cons w ws ih =>
    cases ws with
    | nil => exact Holds.last [] w (by simp [Blank])
    | cons v vs =>
      rw [joinSp]
      · exact Holds.next [] w ' ' _ _ (by simp [Blank]) (Or.inl rfl) ih
      · simp

theorem ended_joined (rows : List (List Text)) : Ended (rows.map ([' '].intercalate ·)) (rowsText rows) := by
  unfold rowsText
  induction rows with
  | nil => exact Ended.nothing
  | cons ws rows ih =>
    rw [List.map_cons, List.flatMap_cons, List.append_assoc]
    exact Ended.lf _ _ _ ih

theorem rows_joined (rows : List (List Text)) (h : ∀ row ∈ rows, row ≠ []) : Rows rows (rows.map ([' '].intercalate ·)) := by
  refine ⟨rows, ?_, ?_⟩
  · clear h
    induction rows with
    | nil => exact List.Forall₂.nil
    | cons ws rows ih => exact List.Forall₂.cons (Or.inl (holds_joined ws)) ih
  · rw [List.filter_eq_self]
    intro row hr
    simpa using h row hr

/-! ## C144 -/

theorem readPlain_laid (ns : List Text) (rows : List (List Text)) (hne : ns ≠ []) (hn : ∀ w ∈ ns, Word w) (hr : ∀ row ∈ rows, ∀ w ∈ row, Word w)
    (empty : List Text) (h : Text) (body : List Text) (he : ∀ l ∈ empty, Holds [] l) (hh : Head ns h) (hb : Rows rows body) (s : Text)
    (hs : Ended (empty ++ h :: body) s) :
    isBinary (ascii s) = false ∧ Simple.readPlain (ascii s) = (do
      let vals ← rows.mapM fun ws => if ws.length ≠ ns.length then (.error .valueError : Except Err (List ℚ)) else ws.mapM pyFloat
      .ok (ns.map String.ofList, vals)) := by
  obtain ⟨all, hall, hf⟩ := hb
  have haw := all_words hf hr
  have hchars : ∀ l ∈ empty ++ h :: body, ∀ c ∈ l, (32 ≤ c.toNat ∧ c.toNat ≤ 126) ∨ c = '\t' := by
    intro l hl
    simp only [List.mem_append, List.mem_cons] at hl
    rcases hl with hl | rfl | hl
    · exact fun c hc => (holds_chars (he l hl) (by simp) c hc).1
    · exact head_chars hh hn
    · obtain ⟨ws, h1, h2⟩ := forall₂_mem hall l hl
      exact holdsOr_chars h2 (haw ws h1)
  have hascii := ended_ascii hs fun l hl c hc => (noBreak_of (hchars l hl c hc)).2.2
  refine ⟨isBinary_valid _ (ascii_valid s hascii), ?_⟩
  unfold Simple.readPlain
  rw [decodeAscii_ascii s hascii, ok_bind, splitlines_ended hs fun l hl c hc => (noBreak_of (hchars l hl c hc)).1]
  have hdrop : (empty ++ h :: body).dropWhile (fun l => decide (nameWords l = [])) = h :: body := by
    rw [List.dropWhile_append_of_pos, List.dropWhile_cons_of_neg]
    · rw [nameWords_head hh hn]; simpa using hne
    · intro l hl
      rw [nameWords_head (Or.inl (he l hl)) (by simp)]
      simp
  rw [hdrop]
  simp only [nameWords_head hh hn, dataWords_rows hall haw, hf, List.length_map]

/-- **C144, maps.** A text file with a flow map is read the same however it is laid out: with any blanks and tabs before, between and after the words,
empty lines anywhere, comments after the line of names, a comment sign before the names, line ends with or without a carriage return, and the last line
ended or not.  Every such file is read (or refused) exactly as the plain table with the same words. -/
theorem C144_maps (F : F32) (ns : List Text) (rows : List (List Text)) (hne : ns ≠ []) (hn : ∀ w ∈ ns, Word w) (hr : ∀ row ∈ rows, row ≠ [] ∧ ∀ w ∈ row, Word w)
    (empty : List Text) (h : Text) (body : List Text) (he : ∀ l ∈ empty, Holds [] l) (hh : Head ns h) (hb : Rows rows body) (s : Text)
    (hs : Ended (empty ++ h :: body) s) : Simple.readData F (ascii s) = Simple.readData F (ascii (tableText ns rows)) := by
  obtain ⟨b1, r1⟩ := readPlain_laid ns rows hne hn (fun row h => (hr row h).2) empty h body he hh hb s hs
  obtain ⟨b2, r2⟩ := readPlain_laid ns rows hne hn (fun row h => (hr row h).2) [] ([' '].intercalate ns) (rows.map ([' '].intercalate ·)) (by simp)
    (Or.inl (holds_joined ns)) (rows_joined rows fun row h => (hr row h).1) (tableText ns rows) (ended_joined (ns :: rows))
  unfold Simple.readData
  rw [b1, b2, r1, r2, if_neg (by simp), if_neg (by simp)]

/-- **C144 (counterexample).** A comment above the line of names is not skipped: its words are taken for the names.  Whatever follows, a file whose first
line is a comment with words but without the word `X` is refused. -/
theorem C144_title_counterexample (F : F32) (title : List Text) (l : Text) (ls : List Text) (s : Text) (hne : title ≠ []) (hw : ∀ w ∈ title, Word w)
    (hX : "X".toList ∉ title) (hl : Holds title l) (hs : Ended (('#' :: l) :: ls) s) (hls : ∀ l ∈ ls, Remark l) :
    ∃ e, Simple.readData F (ascii s) = .error e := by
  have hh : Head title ('#' :: l) := Or.inr ⟨[], l, rfl, by simp [Remark], by simp, hl⟩
  have hchars : ∀ q ∈ ('#' :: l) :: ls, ∀ c ∈ q, (32 ≤ c.toNat ∧ c.toNat ≤ 126) ∨ c = '\t' := by
    intro q hq
    rcases List.mem_cons.mp hq with rfl | hq
    · exact head_chars hh hw
    · exact hls q hq
  have hascii := ended_ascii hs fun l hl c hc => (noBreak_of (hchars l hl c hc)).2.2
  have hX' : "X" ∉ title.map String.ofList := by
    intro h
    obtain ⟨w, hw, e⟩ := List.mem_map.mp h
    exact hX (by rw [← e, String.toList_ofList]; exact hw)
  unfold Simple.readData
  rw [isBinary_valid _ (ascii_valid s hascii), if_neg (by simp)]
  unfold Simple.readPlain
  rw [decodeAscii_ascii s hascii, ok_bind, splitlines_ended hs fun l hl c hc => (noBreak_of (hchars l hl c hc)).1,
    List.dropWhile_cons_of_neg (by rw [nameWords_head hh hw]; simpa using hne)]
  simp only [nameWords_head hh hw]
  generalize List.mapM (m := Except Err) (α := List Text) (β := List ℚ) _ _ = r
  cases r with
  | error e => exact ⟨e, rfl⟩
  | ok rows =>
    rw [ok_bind, ok_bind]
    simp only
    by_cases hlen : rows.length = 1
    · rw [if_pos hlen, if_neg (by rintro ⟨h, -⟩; exact hX' h)]
      exact ⟨_, rfl⟩
    · rw [if_neg hlen]
      have : col? ((title.map String.ofList).zipIdx.map fun p => (p.1, rows.map fun row => row.getD p.2 0)) "X" = none := by
        rw [Option.eq_none_iff_forall_ne_some]
        intro c hc
        have := (col?_isSome_iff _ _).mp ⟨c, hc⟩
        apply hX'
        simp only [names, List.map_map, List.mem_map, Function.comp] at this
        obtain ⟨p, hp, e⟩ := this
        rw [← e]
        exact List.fst_mem_of_mem_zipIdx hp
      refine ⟨.keyError, ?_⟩
      unfold finish
      rw [this]
      rfl

/-! ## Series and interfaces -/

theorem tableWords_laid {ls : List Text} {s : Text} (hs : Ended ls s) : ∀ (all : List (List Text)), List.Forall₂ HoldsOr all ls → (∀ ws ∈ all, ∀ w ∈ ws, Word w) →
    (SpreadingText.fileLines s).map dataWords = all := by
  unfold SpreadingText.fileLines
  have noLf : ∀ {ws : List Text} {l : Text}, HoldsOr ws l → (∀ w ∈ ws, Word w) → '\n' ∉ l := fun h hw hc => (noBreak_of (holdsOr_chars h hw _ hc)).2.1 rfl
  induction hs with
  | nothing =>
    intro all h _
    cases h
    rfl
  | unended l hl =>
    intro all h hw
    cases h with
    | cons h h' =>
      cases h'
      have hw := hw _ (List.mem_singleton.mpr rfl)
      have := SpreadingText.fileLinesAux_line l (noLf h hw) [] []
      rw [List.append_nil, List.append_nil] at this
      rw [this, SpreadingText.fileLinesAux, if_neg (by simpa using hl), List.reverse_reverse, List.map_cons, (dataWords_holds h hw).1, List.map_nil]
  | lf l ls s _ ih =>
    intro all h hw
    cases h with
    | cons h h' =>
      rw [SpreadingText.fileLinesAux_line l (noLf h (hw _ (by simp))), List.append_nil, SpreadingText.fileLinesAux, if_pos rfl, List.reverse_reverse, List.map_cons,
        (dataWords_holds h (hw _ (by simp))).1, ih _ h' fun ws hws => hw ws (by simp [hws])]
  | crlf l ls s _ ih =>
    intro all h hw
    cases h with
    | cons h h' =>
      have e : l ++ '\r' :: '\n' :: s = (l ++ ['\r']) ++ '\n' :: s := by simp
      have hn : '\n' ∉ l ++ ['\r'] := by
        rw [List.mem_append, not_or]
        exact ⟨noLf h (hw _ (by simp)), by decide⟩
      rw [e, SpreadingText.fileLinesAux_line (l ++ ['\r']) hn, List.append_nil, SpreadingText.fileLinesAux, if_pos rfl, List.reverse_reverse, List.map_cons,
        (dataWords_holds h (hw _ (by simp))).2, ih _ h' fun ws hws => hw ws (by simp [hws])]

theorem tableWords_rows {rows : List (List Text)} {ls : List Text} {s : Text} (hr : ∀ row ∈ rows, ∀ w ∈ row, Word w) (hb : Rows rows ls) (hs : Ended ls s) :
    InterfaceText.tableWords s = rows := by
  obtain ⟨all, hall, hf⟩ := hb
  have := tableWords_laid hs all hall (all_words hf hr)
  unfold InterfaceText.tableWords
  show ((SpreadingText.fileLines s).map dataWords).filter (· ≠ []) = rows
  rw [this, hf]

/-- **C144, series.** A table of spreading radii is read the same however it is laid out: with any blanks and tabs before, between and after the numbers,
empty lines and comments anywhere, line ends with or without a carriage return, and the last line ended or not. -/
theorem C144_series (name : Text) (rows : List (List Text)) (hr : ∀ row ∈ rows, row ≠ [] ∧ ∀ w ∈ row, Word w) (ls : List Text) (hb : Rows rows ls) (s : Text)
    (hs : Ended ls s) : SpreadingText.readPlain name s = SpreadingText.readPlain name (rowsText rows) ∧
      ∀ series, SpreadingText.readPlain name (rowsText rows) = .ok series → SpreadingText.readFile name s = .ok series := by
  have h1 := tableWords_rows (fun row h => (hr row h).2) hb hs
  have h2 := tableWords_rows (fun row h => (hr row h).2) (rows_joined rows fun row h => (hr row h).1) (ended_joined rows)
  unfold InterfaceText.tableWords at h1 h2
  have e : SpreadingText.readPlain name s = SpreadingText.readPlain name (rowsText rows) := by
    unfold SpreadingText.readPlain
    rw [h1, h2]
  refine ⟨e, ?_⟩
  intro series hs
  unfold SpreadingText.readFile
  rw [e, hs]

/-- **C144, interfaces.** The same for the coordinates of an interface. -/
theorem C144_interfaces (rows : List (List Text)) (hr : ∀ row ∈ rows, row ≠ [] ∧ ∀ w ∈ row, Word w) (ls : List Text) (hb : Rows rows ls) (s : Text)
    (hs : Ended ls s) : InterfaceText.readCoords s = InterfaceText.readCoords (rowsText rows) := by
  unfold InterfaceText.readCoords
  rw [tableWords_rows (fun row h => (hr row h).2) hb hs, tableWords_rows (fun row h => (hr row h).2) (rows_joined rows fun row h => (hr row h).1) (ended_joined rows)]

/-! ## Examples -/

instance (p : Text) : Decidable (Blank p) := inferInstanceAs (Decidable (∀ c ∈ p, c = ' ' ∨ c = '\t'))
instance (p : Text) : Decidable (Remark p) := inferInstanceAs (Decidable (∀ c ∈ p, (32 ≤ c.toNat ∧ c.toNat ≤ 126) ∨ c = '\t'))

/-- A map with tabs, an empty line, comments, a carriage return and no end of the last line. -/
def handMap : Text := "\n# X\tY  M \r\n0 \t0 1 # the corner\n\t\n1 0 2\r\n# the second row\n 0 1 3\n1 1\t4".toList

/-- The words of the map. -/
def handRows : List (List Text) := [["0".toList, "0".toList, "1".toList], ["1".toList, "0".toList, "2".toList], ["0".toList, "1".toList, "3".toList], ["1".toList, "1".toList, "4".toList]]

/-- The lines of the map. -/
def handBody : List Text := ["0 \t0 1 # the corner".toList, "\t".toList, "1 0 2".toList, "# the second row".toList, " 0 1 3".toList, "1 1\t4".toList]

theorem hand_head : Head ["X".toList, "Y".toList, "M".toList] "# X\tY  M ".toList := by
  refine Or.inr ⟨[], " X\tY  M ".toList, rfl, by simp [Remark], by simp, ?_⟩
  refine Holds.next [' '] ['X'] '\t' _ _ (by decide) (by decide) ?_
  refine Holds.next [] ['Y'] ' ' _ _ (by decide) (by decide) ?_
  refine Holds.next [' '] ['M'] ' ' _ _ (by decide) (by decide) ?_
  exact Holds.nothing _ (by decide)

theorem hand_rows : Rows handRows handBody := by
  refine ⟨[["0".toList, "0".toList, "1".toList], [], ["1".toList, "0".toList, "2".toList], [], ["0".toList, "1".toList, "3".toList], ["1".toList, "1".toList, "4".toList]], ?_, by decide⟩
  refine .cons (Or.inr ⟨"0 \t0 1 ".toList, " the corner".toList, rfl, ?_, by decide⟩) (.cons (Or.inl ?_) (.cons (Or.inl ?_) (.cons (Or.inr ⟨[], " the second row".toList, rfl, ?_, by decide⟩)
    (.cons (Or.inl ?_) (.cons (Or.inl ?_) .nil)))))
  · refine Holds.next [] ['0'] ' ' _ _ (by decide) (by decide) ?_
    refine Holds.next ['\t'] ['0'] ' ' _ _ (by decide) (by decide) ?_
    refine Holds.next [] ['1'] ' ' _ _ (by decide) (by decide) ?_
    exact Holds.nothing _ (by decide)
  · exact Holds.nothing _ (by decide)
  · refine Holds.next [] ['1'] ' ' _ _ (by decide) (by decide) ?_
    refine Holds.next [] ['0'] ' ' _ _ (by decide) (by decide) ?_
    exact Holds.last [] ['2'] (by decide)
  · exact Holds.nothing _ (by decide)
  · refine Holds.next [' '] ['0'] ' ' _ _ (by decide) (by decide) ?_
    refine Holds.next [] ['1'] ' ' _ _ (by decide) (by decide) ?_
    exact Holds.last [] ['3'] (by decide)
  · refine Holds.next [] ['1'] ' ' _ _ (by decide) (by decide) ?_
    refine Holds.next [] ['1'] '\t' _ _ (by decide) (by decide) ?_
    exact Holds.last [] ['4'] (by decide)

theorem hand_ended : Ended ([[]] ++ "# X\tY  M ".toList :: handBody) handMap :=
  .lf [] _ _ (.crlf "# X\tY  M ".toList _ _ (.lf "0 \t0 1 # the corner".toList _ _ (.lf "\t".toList _ _ (.crlf "1 0 2".toList _ _ (.lf "# the second row".toList _ _
    (.lf " 0 1 3".toList _ _ (.unended "1 1\t4".toList (by decide))))))))

theorem hand_words : ∀ row ∈ handRows, row ≠ [] ∧ ∀ w ∈ row, Word w := by
  unfold Word; decide

/-- The map is read, as the plain table is. -/
example : Simple.readData ieee32 (ascii handMap) = Simple.readData ieee32 (ascii (tableText ["X".toList, "Y".toList, "M".toList] handRows)) ∧
    Simple.readData ieee32 (ascii (tableText ["X".toList, "Y".toList, "M".toList] handRows)) =
      .ok (⟨[some 0, some 0, some 1, some 1], [some 0, some 1, some 0, some 1], [("M", [1, 2, 3, 4])]⟩, ⟨(2, 2), (some 1, some 1), (0, 0), 4⟩) :=
  ⟨C144_maps ieee32 _ handRows (by decide) (by unfold Word; decide) hand_words [[]] _ handBody
    (by intro l hl; rw [List.mem_singleton.mp hl]; exact Holds.nothing [] (by decide)) hand_head hand_rows handMap hand_ended, by decide +kernel⟩

/-- Its lines as a table of radii, and with two columns as an interface. -/
example : ∃ s, Ended handBody s ∧ SpreadingText.readPlain "r".toList s = SpreadingText.readPlain "r".toList (rowsText handRows) ∧
    (∃ series, SpreadingText.readPlain "r".toList (rowsText handRows) = .ok series) ∧ InterfaceText.readCoords s = InterfaceText.readCoords (rowsText handRows) := by
  have h : Ended handBody "0 \t0 1 # the corner\n\t\n1 0 2\r\n# the second row\n 0 1 3\n1 1\t4".toList :=
    .lf "0 \t0 1 # the corner".toList _ _ (.lf "\t".toList _ _ (.crlf "1 0 2".toList _ _ (.lf "# the second row".toList _ _ (.lf " 0 1 3".toList _ _ (.unended "1 1\t4".toList (by decide))))))
  refine ⟨_, h, (C144_series _ handRows hand_words handBody hand_rows _ h).1, ?_, C144_interfaces handRows hand_words handBody hand_rows _ h⟩
  have : (SpreadingText.readPlain "r".toList (rowsText handRows)).isOk = true := by decide +kernel
  generalize SpreadingText.readPlain "r".toList (rowsText handRows) = x at this
  cases x with
  | error e => cases this
  | ok a => exact ⟨a, rfl⟩

/-- A title above the names: the file is refused, although the same file without it is read. -/
example : ∃ e, Simple.readData ieee32 (ascii "# droplet\nX Y M\n0 0 1\n0 1 2\n1 0 3\n1 1 4\n".toList) = .error e :=
  C144_title_counterexample ieee32 ["droplet".toList] " droplet".toList _ _ (by decide) (by unfold Word; decide) (by decide) (Holds.last [' '] _ (by decide))
    (.lf "# droplet".toList ["X Y M".toList, "0 0 1".toList, "0 1 2".toList, "1 0 3".toList, "1 1 4".toList] _ (.lf "X Y M".toList _ _ (.lf "0 0 1".toList _ _ (.lf "0 1 2".toList _ _
      (.lf "1 0 3".toList _ _ (.lf "1 1 4".toList _ _ .nothing)))))) (by unfold Remark; decide)

end Strata.Layout
