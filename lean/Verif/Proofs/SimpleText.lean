import Verif.Spec.Simple
import Verif.Proofs.SimpleFile
/-! # Lemmas about simple files: writing, and text files -/
namespace Strata.Simple
open Strata Strata.Flow Strata.Average Strata.Bytes Strata.PyText Strata.Files Strata.Resample Strata.Gmx

theorem saveCols (e : Err) (r : Record) (n : ℕ) (h : ∀ l ∈ ["X", "Y", "N", "T", "M", "U", "V"], ∃ c, col? r l = some c ∧ c.length = n) :
    (do let cols ← fields.mapM (column e r)
        if cols.all fun c => c.length == (cols.headD []).length then Except.ok cols else .error .valueError) =
      .ok (fields.map fun l => (List.range n).map (val r l)) := by
  have : ∀ l ∈ fields, column e r l = .ok ((List.range n).map (val r l)) := by
    intro l hl
    obtain ⟨c, hc, hlen⟩ := h l hl
    unfold column
    rw [hc, Option.elim_some]
    congr 1
    rw [eq_map_getD c, hlen]
    apply List.map_congr_left
    intro t _
    rw [val_of_col hc]
  rw [mapM_ok' _ _ _ this, ok_bind, if_pos]
  simp [fields]

theorem saveData_dict (r : Record) (n : ℕ) (h : ∀ l ∈ ["X", "Y", "N", "T", "M", "U", "V"], ∃ c, col? r l = some c ∧ c.length = n) :
    saveData (.dict r) = .ok (fields.map fun l => (List.range n).map (val r l)) := saveCols .keyError r n h

theorem rowsOf_cols (r : Record) (n : ℕ) : rowsOf (fields.map fun l => (List.range n).map (val r l)) =
    (List.range n).map fun t => fields.map fun l => val r l t := by
  unfold rowsOf
  have : ((fields.map fun l => (List.range n).map (val r l)).headD []).length = n := by simp [fields]
  rw [this]
  apply List.map_congr_left
  intro t ht
  rw [List.map_map]
  apply List.map_congr_left
  intro l _
  exact getD_map_range _ _ _ (List.mem_range.mp ht)

/-- Columns and rows exchanged. -/
theorem fullGrid_swap {r : Record} {sp : ℚ × ℚ} {x0 y0 : ℚ} {nx ny : ℕ} {co : Label × Label} (h : FullGrid r sp x0 y0 nx ny co) :
    FullGrid r (sp.2, sp.1) y0 x0 ny nx (co.2, co.1) where
  wf := h.wf
  hasX := h.hasY
  hasY := h.hasX
  nxpos := h.nypos
  nypos := h.nxpos
  node i j hi hj := by
    obtain ⟨t, ⟨h1, h2, h3⟩, h4⟩ := h.node j i hj hi
    exact ⟨t, ⟨h1, h3, h2⟩, fun s hs => h4 s ⟨hs.1, hs.2.2, hs.2.1⟩⟩
  row t ht := by
    obtain ⟨i, j, hi, hj, h1, h2⟩ := h.row t ht
    exact ⟨j, i, hj, hi, h2, h1⟩

theorem atNode_swap (r : Record) (l : Label) (sp : ℚ × ℚ) (x0 y0 : ℚ) (co : Label × Label) (i j : ℕ) :
    atNode r l (sp.2, sp.1) y0 x0 (co.2, co.1) j i = atNode r l sp x0 y0 co i j := by
  unfold atNode valueAt
  simp only [and_comm]

/-- The array the writer sorts is the grid, column after column. -/
theorem saveData_array (r : Record) (sp : ℚ × ℚ) (x0 y0 : ℚ) (nx ny : ℕ) (h : FullGrid r sp x0 y0 nx ny) (hx : 0 < sp.1) (hy : 0 < sp.2)
    (hf : ∀ l ∈ ["X", "Y", "N", "T", "M", "U", "V"], l ∈ names r) :
    ∃ s, XMajor s sp x0 y0 nx ny ∧ (∀ l, ∀ i j, i < nx → j < ny → val s l (i * ny + j) = atNode r l sp x0 y0 ("X", "Y") i j) ∧
      saveData (.array r) = saveData (.dict s) := by
  obtain ⟨s, hs, hlat, hnames, hval⟩ := sort_fullGrid (fullGrid_swap h) hy hx
  simp only at hs hlat hval
  have hc : ∀ l ∈ ["X", "Y", "N", "T", "M", "U", "V"], ∃ c, col? s l = some c ∧ c.length = nx * ny := by
    intro l hl
    obtain ⟨c, hc⟩ := (col?_isSome_iff s l).mpr (by rw [hnames]; exact hf l hl)
    exact ⟨c, hc, by rw [col?_length hlat.wf hc, hlat.size, Nat.mul_comm]⟩
  refine ⟨s, ⟨hc, ?_, ?_⟩, ?_, ?_⟩
  · intro t ht
    exact hlat.y t (by rw [Nat.mul_comm]; exact ht)
  · intro t ht
    exact hlat.x t (by rw [Nat.mul_comm]; exact ht)
  · intro l i j hi hj
    rw [hval l j i hj hi]
    exact atNode_swap r l sp x0 y0 ("X", "Y") i j
  · rw [saveData_dict s _ hc]
    simp only [saveData]
    rw [hs, ok_bind]
    exact saveCols _ s _ hc

/-! ## Text -/

theorem Word.notSpace {w : Text} (h : Word w) : ∀ c ∈ w, isSpace c = false := fun c hc => notSpace_of (h.2 c hc).1

theorem joinSp_eq (ws : List Text) : joinSp ws = [' '].intercalate ws := by
  induction ws with
  | nil => rfl
  | cons w ws ih =>
    cases ws with
    | nil => simp [joinSp]
    | cons v vs =>
      rw [joinSp, ih]
      · simp [List.intercalate]
      · simp

theorem words_joinSp (ws : List Text) (h : ∀ w ∈ ws, Word w) : words (joinSp ws) = ws := by
  induction ws with
  | nil => rfl
  | cons w ws ih =>
    have hw := h w (by simp)
    cases ws with
    | nil => exact words_single w hw.1 hw.notSpace
    | cons v vs =>
      rw [joinSp]
      · rw [words_cons w _ hw.1 hw.notSpace, ih fun u hu => h u (by simp [List.mem_cons.mp hu])]
      · simp

theorem joinSp_chars (ws : List Text) (h : ∀ w ∈ ws, Word w) : ∀ c ∈ joinSp ws, 32 ≤ c.toNat ∧ c.toNat ≤ 126 ∧ c ≠ '#' := by
  induction ws with
  | nil => intro c hc; simp [joinSp] at hc
  | cons w ws ih =>
    intro c hc
    have hw := h w (by simp)
    have hw' : c ∈ w → 32 ≤ c.toNat ∧ c.toNat ≤ 126 ∧ c ≠ '#' := fun hc => by have := hw.2 c hc; exact ⟨by omega, this.2⟩
    cases ws with
    | nil => exact hw' (by simpa [joinSp] using hc)
    | cons v vs =>
      rw [joinSp] at hc
      · simp only [List.mem_append, List.mem_cons] at hc
        rcases hc with hc | rfl | hc
        · exact hw' hc
        · decide
        · exact ih (fun u hu => h u (by simp [List.mem_cons.mp hu])) c hc
      · simp

theorem takeWhile_self {α : Type} {p : α → Bool} (l : List α) (h : ∀ c ∈ l, p c = true) : l.takeWhile p = l := by
  induction l with
  | nil => rfl
  | cons a l ih => rw [List.takeWhile_cons_of_pos (h a (by simp)), ih fun c hc => h c (by simp [hc])]

theorem mapM_congr' {α β : Type} (f g : α → Except Err β) : ∀ (l : List α), (∀ a ∈ l, f a = g a) → l.mapM f = l.mapM g := by
  intro l h
  induction l with
  | nil => rfl
  | cons a l ih => rw [List.mapM_cons, List.mapM_cons, h a (by simp), ih fun c hc => h c (by simp [hc])]

theorem noHash {l : Text} (h : ∀ c ∈ l, 32 ≤ c.toNat ∧ c.toNat ≤ 126 ∧ c ≠ '#') : dataWords l = words l ∧ nameWords l = words l := by
  constructor
  · unfold dataWords
    congr 1
    refine (takeWhile_self l ?_)
    intro c hc
    simpa using (h c hc).2.2
  · unfold nameWords
    rw [if_neg]
    intro hc
    exact (h _ hc).2.2 rfl

theorem tableText_eq (ns : List Text) (rows : List (List Text)) :
    tableText ns rows = (joinSp ns :: rows.map joinSp).flatMap fun l => l ++ ['\n'] := by
  unfold tableText
  simp only [List.flatMap_cons, joinSp_eq, List.flatMap_map]

theorem tableText_lines (ns : List Text) (rows : List (List Text)) (hn : ∀ w ∈ ns, Word w) (hr : ∀ row ∈ rows, ∀ w ∈ row, Word w) :
    splitlines (tableText ns rows) = joinSp ns :: rows.map joinSp := by
  rw [tableText_eq]
  apply splitlines_lines
  intro l hl c hc
  have : 32 ≤ c.toNat ∧ c.toNat ≤ 126 ∧ c ≠ '#' := by
    rcases List.mem_cons.mp hl with rfl | hl
    · exact joinSp_chars ns hn c hc
    · obtain ⟨row, hrow, rfl⟩ := List.mem_map.mp hl
      exact joinSp_chars row (hr row hrow) c hc
  simp only [isBreak, Bool.or_eq_false_iff, Bool.and_eq_false_iff, decide_eq_false_iff_not]
  omega

theorem tableText_ascii (ns : List Text) (rows : List (List Text)) (hn : ∀ w ∈ ns, Word w) (hr : ∀ row ∈ rows, ∀ w ∈ row, Word w) :
    ∀ c ∈ tableText ns rows, c.toNat < 128 := by
  intro c hc
  rw [tableText_eq, List.mem_flatMap] at hc
  obtain ⟨l, hl, hc⟩ := hc
  rcases List.mem_append.mp hc with hc | hc
  · rcases List.mem_cons.mp hl with rfl | hl
    · have := joinSp_chars ns hn c hc; omega
    · obtain ⟨row, hrow, rfl⟩ := List.mem_map.mp hl
      have := joinSp_chars row (hr row hrow) c hc; omega
  · rw [List.mem_singleton] at hc
    rw [hc]; decide

/-- A table is read as it was written. -/
theorem readPlain_table (ns : List Text) (rows : List (List Text)) (vals : List (List ℚ)) (hne : ns ≠ []) (hn : ∀ w ∈ ns, Word w)
    (hr : ∀ row ∈ rows, row.length = ns.length ∧ ∀ w ∈ row, Word w)
    (hv : rows.mapM (fun row => row.mapM pyFloat) = .ok vals) :
    readPlain (ascii (tableText ns rows)) = .ok (ns.map String.ofList, vals) := by
  unfold readPlain
  rw [decodeAscii_ascii _ (tableText_ascii ns rows hn fun row h => (hr row h).2), ok_bind, tableText_lines ns rows hn fun row h => (hr row h).2]
  have hnames : nameWords (joinSp ns) = ns := by rw [(noHash (joinSp_chars ns hn)).2, words_joinSp ns hn]
  rw [List.dropWhile_cons_of_neg (by rw [hnames]; simpa using hne)]
  simp only [hnames]
  have hrows : ((rows.map joinSp).map dataWords).filter (· ≠ []) = rows := by
    rw [List.map_map]
    have h1 : rows.map (dataWords ∘ joinSp) = rows := by
      conv_rhs => rw [← List.map_id rows]
      apply List.map_congr_left
      intro row hrow
      simp only [Function.comp, id]
      rw [(noHash (joinSp_chars row (hr row hrow).2)).1, words_joinSp row (hr row hrow).2]
    rw [h1, List.filter_eq_self]
    intro row hrow
    have := (hr row hrow).1
    have h2 : 0 < ns.length := List.length_pos_iff.mpr hne
    rw [decide_eq_true_iff]
    rintro rfl
    simp at this
    omega
  rw [hrows]
  have : rows.mapM (fun ws => if ws.length ≠ (ns.map String.ofList).length then (Except.error Err.valueError : Except Err (List ℚ)) else ws.mapM pyFloat) = rows.mapM fun row => row.mapM pyFloat := by
    apply mapM_congr'
    intro row hrow
    rw [if_neg (by simpa using (hr row hrow).1)]
  rw [this, hv, ok_bind]

theorem mapM_length {α β : Type} {f : α → Except Err β} : ∀ {l : List α} {bs : List β}, l.mapM f = .ok bs → l.length = bs.length := by
  intro l
  induction l with
  | nil => intro bs h; cases h; rfl
  | cons a l ih =>
    intro bs h
    rw [List.mapM_cons] at h
    cases ha : f a with
    | error e => rw [ha] at h; cases h
    | ok b =>
      rw [ha, ok_bind] at h
      cases hl : l.mapM f with
      | error e => rw [hl] at h; cases h
      | ok bs' =>
        rw [hl, ok_bind] at h
        cases h
        simp [ih hl]

theorem finish_rest {r : Record} {out : Out} {info : SInfo} (h : finish r = .ok (out, info)) : out.rest = r.filter fun c => decide (c.1 ∉ ["X", "Y"]) := by
  unfold finish at h
  cases hX : (col? r "X") with
  | none => rw [hX] at h; cases h
  | some X =>
    cases hY : (col? r "Y") with
    | none => rw [hX, hY] at h; cases h
    | some Y =>
      rw [hX, hY] at h
      simp only [Option.elim_some, ok_bind] at h
      cases hi : calcInformation (X.map round5) (Y.map round5) with
      | error e => rw [hi] at h; cases h
      | ok i =>
        rw [hi, ok_bind] at h
        simp only [Except.ok.injEq, Prod.mk.injEq] at h
        rw [← h.1]

theorem encode_ascii (c : Char) (h : c.toNat < 128) : String.utf8EncodeChar c = [UInt8.ofNat c.toNat] := by
  unfold String.utf8EncodeChar
  simp only
  rw [if_pos (by show c.toNat ≤ _; omega)]
  rfl

theorem ascii_valid (s : Text) (h : ∀ c ∈ s, c.toNat < 128) : ValidUtf8 (ascii s) := by
  refine ⟨s, ?_⟩
  unfold ascii
  induction s with
  | nil => rfl
  | cons c s ih =>
    rw [List.map_cons, List.flatMap_cons, encode_ascii c (h c (by simp)), ih fun c hc => h c (by simp [hc])]
    rfl

theorem isBinary_valid (content : Bytes) (h : ValidUtf8 content) : isBinary content = false := by
  obtain ⟨s, hs⟩ := h
  rw [isBinary_eq]
  have hb : (utf8 (content.take 8192)).2 ≠ .bad := utf8_take_valid s _ (content.drop 8192) (by rw [List.take_append_drop]; exact hs)
  by_cases hl : content.length ≤ 8192
  · left
    rw [List.take_of_length_le hl, hs, utf8_valid]
  · have := (utf8_spec _ (content.take 8192) le_rfl).2.2.1 hb
    rw [List.length_take] at this
    cases h : (utf8 (content.take 8192)).2 with
    | ok => exact Or.inl rfl
    | more => exact Or.inr ⟨rfl, by omega⟩
    | bad => exact absurd h hb

theorem mapM_map' {α β γ : Type} (g : α → β) (f : β → Except Err γ) (l : List α) : (l.map g).mapM f = l.mapM fun a => f (g a) := by
  induction l with
  | nil => rfl
  | cons a l ih => rw [List.map_cons, List.mapM_cons, List.mapM_cons, ih]

theorem bind_eq_ok {α β : Type} {x : Except Err α} {f : α → Except Err β} {b : β} (h : (x >>= f) = .ok b) : ∃ a, x = .ok a ∧ f a = .ok b := by
  cases x with
  | error e => cases h
  | ok a => exact ⟨a, rfl, h⟩

theorem writeData_header (F : F32) (data : Record) (i : GInfo) (bytes : Bytes) (h : Gmx.writeData F data i = .ok bytes) :
    ∃ num rest, bytes = header i num ++ rest := by
  unfold Gmx.writeData at h
  cases hc : (col? data "M") with
  | none => rw [hc] at h; cases h
  | some c =>
    rw [hc, Option.elim_some, ok_bind] at h
    simp only at h
    generalize (masked (c.map fun m => decide (m ≠ 0)) ((List.range (i.shape.1 * i.shape.2)).map fun t => t / i.shape.2)) = a at h
    generalize (masked (c.map fun m => decide (m ≠ 0)) ((List.range (i.shape.1 * i.shape.2)).map fun t => t % i.shape.2)) = b at h
    cases a with
    | error e => cases h
    | ok ixs =>
      cases b with
      | error e => cases h
      | ok iys =>
        rw [ok_bind, ok_bind] at h
        obtain ⟨cols, _, h⟩ := bind_eq_ok h
        cases h
        exact ⟨_, _, by rw [List.append_assoc, List.append_assoc]⟩

theorem isGmx_header (i : GInfo) (num : ℕ) (rest : Bytes) : isGmx (header i num ++ rest) = true := by
  have h1 : ∃ tl, header i num = ascii "FORMAT GMX_FLOW_1".toList ++ tl := by
    unfold header headerText headerLines
    rw [List.cons_append, List.flatMap_cons]
    unfold ascii
    rw [List.map_append, List.map_append, List.append_assoc, List.append_assoc]
    exact ⟨_, rfl⟩
  obtain ⟨tl, htl⟩ := h1
  rw [htl, List.append_assoc]
  generalize tl ++ rest = z
  unfold isGmx
  simp only
  rw [Bool.or_eq_true]
  left
  rw [List.isPrefixOf_iff_prefix, List.prefix_take_iff]
  exact ⟨List.prefix_append _ _, by decide⟩

theorem isGmx_first (c : Char) (s : Text) (h : UInt8.ofNat c.toNat ≠ UInt8.ofNat 'F'.toNat) (rest : Text) : isGmx (ascii (c :: s ++ rest)) = false := by
  unfold isGmx ascii
  simp only [List.cons_append, List.map_cons, List.take_succ_cons]
  have : ∀ (l : Bytes), (List.isPrefixOf (UInt8.ofNat 'F'.toNat :: l) (UInt8.ofNat c.toNat :: (List.map (fun c => UInt8.ofNat c.toNat) (s ++ rest)).take 99)) = false := by
    intro l
    rw [List.isPrefixOf]
    have : (UInt8.ofNat 'F'.toNat == UInt8.ofNat c.toNat) = false := by rw [beq_eq_false_iff_ne]; exact Ne.symm h
    rw [this]; rfl
  rw [Bool.or_eq_false_iff]
  exact ⟨this _, this _⟩

theorem isGmx_four (a rest : Bytes) (hl : a.length = 4) (h : a ≠ ascii "FORM".toList) : isGmx (a ++ rest) = false := by
  rw [← Bool.not_eq_true]
  intro hg
  unfold isGmx at hg
  simp only [Bool.or_eq_true, List.isPrefixOf_iff_prefix, List.prefix_take_iff] at hg
  have key : ∀ s : Text, ascii s <+: a ++ rest → (ascii s).take 4 = ascii "FORM".toList → False := by
    intro s hp h4
    obtain ⟨t, ht⟩ := hp
    apply h
    have := congrArg (List.take 4) ht
    rw [List.take_append_of_le_length (by have := congrArg List.length h4; rw [List.length_take] at this; simp [ascii] at this ⊢; omega), h4,
      List.take_append_of_le_length (by omega), List.take_of_length_le (by omega)] at this
    exact this.symm
  rcases hg with hg | hg
  · exact key _ hg.1 (by decide)
  · exact key _ hg.1 (by decide)

theorem saveData_first (data : Record) (cols : List (List ℚ)) (h : saveData (.dict data) = .ok cols) :
    ∃ c cs, cols = c :: cs ∧ col? data "X" = some c := by
  simp only [saveData, fields] at h
  rw [List.mapM_cons] at h
  cases hX : col? data "X" with
  | none => simp only [column, hX, Option.elim_none] at h; cases h
  | some c =>
    have : column .keyError data "X" = .ok c := by simp [column, hX]
    rw [this, ok_bind] at h
    obtain ⟨cols', h1, h⟩ := bind_eq_ok h
    obtain ⟨cs, _, h1⟩ := bind_eq_ok h1
    cases h1
    split at h
    · cases h; exact ⟨c, cs, rfl, rfl⟩
    · cases h

end Strata.Simple
