import Verif.Proofs.PyText
import Verif.Proofs.Grid
/-! # Lemmas about the gmx_flow_1 format -/
namespace Strata.Gmx
open Strata Strata.Flow Strata.Average Strata.Bytes Strata.PyText Strata.Files

/-! ## Bytes -/

theorem ofBytes_bytes (k : ℕ) : ∀ n : ℕ, ofBytes ((List.range k).map fun i => UInt8.ofNat (n / 256 ^ i % 256)) = n % 256 ^ k := by
  induction k with
  | zero => intro n; simp [ofBytes, Nat.mod_one]
  | succ k ih =>
    intro n
    rw [List.range_succ_eq_map, List.map_cons, List.map_map, ofBytes]
    have : ((fun i => UInt8.ofNat (n / 256 ^ i % 256)) ∘ Nat.succ) = fun i => UInt8.ofNat (n / 256 / 256 ^ i % 256) := by
      funext i
      simp only [Function.comp_apply]
      rw [Nat.div_div_eq_div_mul, Nat.pow_succ, Nat.mul_comm (256 ^ i)]
    rw [this, ih (n / 256)]
    have h0 : (UInt8.ofNat (n / 256 ^ 0 % 256)).toNat = n % 256 := by
      rw [UInt8.toNat_ofNat', pow_zero, Nat.div_one, Nat.mod_mod]
    rw [h0, Nat.pow_succ', Nat.mod_mul]

theorem ofBytes_u64 {n : ℕ} (h : n < 2 ^ 64) : ofBytes (u64 n) = n := by
  unfold u64
  rw [ofBytes_bytes, Nat.mod_eq_of_lt]
  calc n < 2 ^ 64 := h
    _ = 256 ^ 8 := by norm_num

theorem length_u64 (n : ℕ) : (u64 n).length = 8 := by simp [u64]

theorem length_flatMap_const {α : Type} (enc : α → Bytes) (w : ℕ) (items : List α) (h : ∀ a ∈ items, (enc a).length = w) :
    (items.flatMap enc).length = items.length * w := by
  induction items with
  | nil => simp
  | cons a as ih =>
    rw [List.flatMap_cons, List.length_append, ih fun b hb => h b (by simp [hb]), h a (by simp), List.length_cons]
    ring

theorem pieces_items {α : Type} (enc : α → Bytes) (w : ℕ) : ∀ (k : ℕ) (items : List α) (r : Bytes) (d : ℕ),
    (∀ a ∈ items, (enc a).length = w) → k ≤ items.length → k * w ≤ d →
    pieces w k ((items.flatMap enc ++ r).take d) = (items.take k).map enc := by
  intro k
  induction k with
  | zero => intro items r d _ _ _; simp [pieces]
  | succ k ih =>
    intro items r d h hk hd
    cases items with
    | nil => simp at hk
    | cons a as =>
      have ha := h a (by simp)
      have hwd : w ≤ d := by rw [Nat.succ_mul] at hd; omega
      rw [pieces, List.flatMap_cons, List.take_succ_cons, List.map_cons]
      have e : ((enc a ++ as.flatMap enc ++ r).take d) = enc a ++ (as.flatMap enc ++ r).take (d - w) := by
        rw [List.append_assoc, List.take_append, List.take_of_length_le (by rw [ha]; exact hwd), ha]
      rw [e, List.take_append, ha, Nat.sub_self, List.take_zero, List.append_nil, List.take_of_length_le (by rw [ha]),
        List.drop_append, ha, Nat.sub_self, List.drop_zero, List.drop_of_length_le (by rw [ha]), List.nil_append,
        ih as r (d - w) (fun b hb => h b (by simp [hb])) (by simpa using hk) (by rw [Nat.succ_mul] at hd; omega)]

/-- Reading one field from a file that may have been cut after `d` more bytes. -/
theorem fromFile_items {α : Type} (enc : α → Bytes) (w : ℕ) (hw : 0 < w) (items : List α) (h : ∀ a ∈ items, (enc a).length = w)
    (pre rest : Bytes) (d : ℕ) :
    fromFile w items.length ⟨pre ++ (items.flatMap enc ++ rest).take d, pre.length⟩ =
      ((items.take (d / w)).map enc,
        ⟨(pre ++ (items.flatMap enc).take d) ++ rest.take (d - items.length * w), (pre ++ (items.flatMap enc).take d).length⟩) := by
  have hl := length_flatMap_const enc w items h
  have hc : pre ++ (items.flatMap enc ++ rest).take d = (pre ++ (items.flatMap enc).take d) ++ rest.take (d - items.length * w) := by
    rw [List.take_append, hl, List.append_assoc]
  unfold fromFile
  simp only [List.length_append, List.drop_left]
  rw [← hc]
  have hlen : ((items.flatMap enc ++ rest).take d).length = min d (items.length * w + rest.length) := by
    rw [List.length_take, List.length_append, hl]
  rw [Nat.add_sub_cancel_left, hlen]
  by_cases hd : items.length * w ≤ d
  · rw [if_pos (by omega)]
    have hk : items.length ≤ d / w := by rw [Nat.le_div_iff_mul_le hw]; exact hd
    rw [pieces_items enc w items.length items rest d h le_rfl hd, List.take_length, List.take_of_length_le hk]
    rw [List.length_take, hl, Nat.min_eq_right hd]
  · have hd' : d < items.length * w := not_le.mp hd
    have hm : min d (items.length * w + rest.length) = d := by omega
    rw [hm, if_neg hd]
    have hk : d / w ≤ items.length := by
      have : d / w * w ≤ d := Nat.div_mul_le_self d w
      by_contra hcon
      have := Nat.mul_le_mul_right w (not_le.mp hcon).le
      omega
    rw [pieces_items enc w (d / w) items rest d h hk (Nat.div_mul_le_self d w), List.length_take, hl, Nat.min_eq_left hd'.le]

/-! ## The header -/

theorem headerLines_printable (i : GInfo) (num : ℕ) : ∀ l ∈ headerLines i num, ∀ c ∈ l, Printable c := by
  have hlit : ∀ s : Text, (s.all fun c => decide (32 ≤ c.toNat ∧ c.toNat < 127)) = true → ∀ c ∈ s, Printable c := by
    intro s hs c hc
    rw [List.all_eq_true] at hs
    have h2 := hs c hc
    rw [decide_eq_true_iff] at h2
    exact h2
  have hsp : Printable ' ' := by unfold Printable; decide
  have key : ∀ (p a b : Text), (∀ c ∈ p, Printable c) → (∀ c ∈ a, Printable c) → (∀ c ∈ b, Printable c) →
      ∀ c ∈ p ++ a ++ ' ' :: b, Printable c := by
    intro p a b hp ha hb c hc
    simp only [List.mem_append, List.mem_cons] at hc
    rcases hc with (h | h) | rfl | h
    · exact hp c h
    · exact ha c h
    · exact hsp
    · exact hb c h
  intro l hl
  unfold headerLines at hl
  rcases List.mem_append.mp hl with h | h
  · simp only [List.mem_cons, List.not_mem_nil, or_false] at h
    rcases h with rfl | rfl | rfl | rfl | rfl | rfl
    · exact hlit _ (by decide)
    · exact key _ _ _ (hlit _ (by decide)) (fmt12f_chars _) (fmt12f_chars _)
    · exact key _ _ _ (hlit _ (by decide)) (decimal_chars _) (decimal_chars _)
    · exact key _ _ _ (hlit _ (by decide)) (fmt12f_chars _) (fmt12f_chars _)
    · intro c hc
      rcases List.mem_append.mp hc with h | h
      · exact hlit _ (by decide) c h
      · exact decimal_chars _ c h
    · exact hlit _ (by decide)
  · have : ∀ l ∈ comments, (l.all fun c => decide (32 ≤ c.toNat ∧ c.toNat < 127)) = true := by decide +kernel
    exact hlit l (this l h)

theorem headerText_chars (i : GInfo) (num : ℕ) : ∀ c ∈ headerText i num, 10 ≤ c.toNat ∧ c.toNat < 127 := by
  intro c hc
  unfold headerText at hc
  rw [List.mem_flatMap] at hc
  obtain ⟨l, hl, hc⟩ := hc
  rcases List.mem_append.mp hc with h | h
  · have := headerLines_printable i num l hl c h
    unfold Printable at this; omega
  · simp only [List.mem_singleton] at h
    subst h; decide

theorem decodeAscii_ascii (s : Text) (h : ∀ c ∈ s, c.toNat < 128) : decodeAscii (ascii s) = .ok s := by
  have hb : ∀ c ∈ s, (UInt8.ofNat c.toNat).toNat = c.toNat := by
    intro c hc
    rw [UInt8.toNat_ofNat']
    exact Nat.mod_eq_of_lt (by have := h c hc; omega)
  unfold decodeAscii ascii
  rw [if_pos]
  · congr 1
    rw [List.map_map]
    conv_rhs => rw [← List.map_id s]
    apply List.map_congr_left
    intro c hc
    simp only [Function.comp_apply, id]
    rw [hb c hc, Char.ofNat_toNat]
  · rw [List.all_eq_true]
    intro x hx
    obtain ⟨c, hc, rfl⟩ := List.mem_map.mp hx
    rw [hb c hc]
    exact decide_eq_true (h c hc)

theorem zero_notMem_ascii (s : Text) (h : ∀ c ∈ s, 0 < c.toNat ∧ c.toNat < 128) : (0 : UInt8) ∉ ascii s := by
  intro h0
  unfold ascii at h0
  obtain ⟨c, hc, e⟩ := List.mem_map.mp h0
  have := h c hc
  have e2 := congrArg UInt8.toNat e
  rw [UInt8.toNat_ofNat', Nat.mod_eq_of_lt (by omega)] at e2
  simp at e2
  omega

/-! Words of the header lines. -/

theorem lit_notSpace (s : Text) (hs : (s.all fun c => decide (33 ≤ c.toNat)) = true) : ∀ c ∈ s, isSpace c = false := by
  intro c hc
  rw [List.all_eq_true] at hs
  have h2 := hs c hc
  rw [decide_eq_true_iff] at h2
  exact notSpace_of h2

theorem words_origin (a b : ℚ) : words ("ORIGIN ".toList ++ fmt12f a ++ ' ' :: fmt12f b) = ["ORIGIN".toList, fixed6 a, fixed6 b] := by
  rw [show "ORIGIN ".toList = "ORIGIN".toList ++ [' '] by decide +kernel, List.append_assoc, List.append_assoc, List.singleton_append,
    words_cons _ _ (by decide +kernel) (lit_notSpace _ (by decide +kernel)), words_fmt12f_cons, words_fmt12f]

theorem words_spacing (a b : ℚ) : words ("SPACING ".toList ++ fmt12f a ++ ' ' :: fmt12f b) = ["SPACING".toList, fixed6 a, fixed6 b] := by
  rw [show "SPACING ".toList = "SPACING".toList ++ [' '] by decide +kernel, List.append_assoc, List.append_assoc, List.singleton_append,
    words_cons _ _ (by decide +kernel) (lit_notSpace _ (by decide +kernel)), words_fmt12f_cons, words_fmt12f]

theorem words_shape (a b : ℕ) : words ("SHAPE ".toList ++ decimal a ++ ' ' :: decimal b) = ["SHAPE".toList, decimal a, decimal b] := by
  rw [show "SHAPE ".toList = "SHAPE".toList ++ [' '] by decide +kernel, List.append_assoc, List.append_assoc, List.singleton_append,
    words_cons _ _ (by decide +kernel) (lit_notSpace _ (by decide +kernel)), words_decimal_cons, words_decimal]

theorem words_num (a : ℕ) : words ("NUMDATA ".toList ++ decimal a) = ["NUMDATA".toList, decimal a] := by
  rw [show "NUMDATA ".toList = "NUMDATA".toList ++ [' '] by decide +kernel, List.append_assoc, List.singleton_append,
    words_cons _ _ (by decide +kernel) (lit_notSpace _ (by decide +kernel)), words_decimal]

theorem words_format : words "FORMAT GMX_FLOW_1".toList = ["FORMAT".toList, "GMX_FLOW_1".toList] := by decide +kernel

theorem words_fields : words "FIELDS IX IY N T M U V".toList =
    ["FIELDS".toList, "IX".toList, "IY".toList, "N".toList, "T".toList, "M".toList, "U".toList, "V".toList] := by decide +kernel

/-! Header lines by their words. -/

theorem headLine_shape (h : Head) {l : Text} {ws : List Text} (e : words l = "SHAPE".toList :: ws) :
    headLine h l = (do .ok { h with shape := some (← (ws.take 2).mapM pyInt) }) := by
  unfold headLine
  rw [e]
  simp only
  rw [if_pos (by decide +kernel)]

theorem headLine_spacing (h : Head) {l : Text} {ws : List Text} (e : words l = "SPACING".toList :: ws) :
    headLine h l = (do .ok { h with spacing := some (← (ws.take 2).mapM pyFloat) }) := by
  unfold headLine
  rw [e]
  simp only
  rw [if_neg (by decide +kernel), if_pos (by decide +kernel)]

theorem headLine_origin (h : Head) {l : Text} {ws : List Text} (e : words l = "ORIGIN".toList :: ws) :
    headLine h l = (do .ok { h with origin := some (← (ws.take 2).mapM pyFloat) }) := by
  unfold headLine
  rw [e]
  simp only
  rw [if_neg (by decide +kernel), if_neg (by decide +kernel), if_pos (by decide +kernel)]

theorem headLine_fields (h : Head) {l : Text} {ws : List Text} (e : words l = "FIELDS".toList :: ws) :
    headLine h l = .ok { h with fields := some ws } := by
  unfold headLine
  rw [e]
  simp only
  rw [if_neg (by decide +kernel), if_neg (by decide +kernel), if_neg (by decide +kernel), if_pos (by decide +kernel)]

theorem headLine_num (h : Head) {l v : Text} {ws : List Text} (e : words l = "NUMDATA".toList :: v :: ws) :
    headLine h l = (do .ok { h with num := some (← pyInt v) }) := by
  unfold headLine
  rw [e]
  simp only
  rw [if_neg (by decide +kernel), if_neg (by decide +kernel), if_neg (by decide +kernel), if_neg (by decide +kernel), if_pos (by decide +kernel)]

theorem headLine_other (h : Head) {l w : Text} {ws : List Text} (e : words l = w :: ws)
    (hw : upper w ∉ ["SHAPE".toList, "SPACING".toList, "ORIGIN".toList, "FIELDS".toList, "NUMDATA".toList]) :
    headLine h l = .ok h := by
  unfold headLine
  rw [e]
  simp only [List.mem_cons, List.not_mem_nil, or_false, not_or] at hw
  simp only
  rw [if_neg hw.1, if_neg hw.2.1, if_neg hw.2.2.1, if_neg hw.2.2.2.1, if_neg hw.2.2.2.2]

theorem headLines_comments (ls : List Text) (hl : ∀ l ∈ ls, ∃ r, words l = "COMMENT".toList :: r) :
    ∀ h : Head, ls.foldlM headLine h = .ok h := by
  induction ls with
  | nil => intro h; rfl
  | cons l ls ih =>
    intro h
    obtain ⟨r, hr⟩ := hl l (by simp)
    rw [List.foldlM_cons, headLine_other h hr (by decide +kernel)]
    exact ih (fun l' hl' => hl l' (by simp [hl'])) h

theorem comments_words : ∀ l ∈ comments, ∃ r, words l = "COMMENT".toList :: r := by
  have h1 : ∀ l ∈ comments, (words l).head? = some "COMMENT".toList := by decide +kernel
  intro l hl
  have := h1 l hl
  cases hw : words l with
  | nil => rw [hw] at this; simp at this
  | cons a as =>
    rw [hw] at this
    simp only [List.head?_cons, Option.some.injEq] at this
    exact ⟨as, by rw [this]⟩

theorem mapM_two {α : Type} {f : Text → Except Err α} {a b : Text} {x y : α} (ha : f a = .ok x) (hb : f b = .ok y) :
    (List.take 2 [a, b]).mapM f = .ok [x, y] := by
  simp [ha, hb, bind, Except.bind, pure, Except.pure]

theorem foldlM_ok {l : Text} {ls : List Text} {h h' : Head} (e : headLine h l = .ok h') :
    (l :: ls).foldlM headLine h = ls.foldlM headLine h' := by
  rw [List.foldlM_cons, e]; rfl

theorem headLine_shape' (h : Head) {l a b : Text} {x y : ℤ} (e : words l = ["SHAPE".toList, a, b]) (ha : pyInt a = .ok x) (hb : pyInt b = .ok y) :
    headLine h l = .ok { h with shape := some [x, y] } := by
  rw [headLine_shape h e, mapM_two ha hb]; rfl

theorem headLine_spacing' (h : Head) {l a b : Text} {x y : ℚ} (e : words l = ["SPACING".toList, a, b]) (ha : pyFloat a = .ok x) (hb : pyFloat b = .ok y) :
    headLine h l = .ok { h with spacing := some [x, y] } := by
  rw [headLine_spacing h e, mapM_two ha hb]; rfl

theorem headLine_origin' (h : Head) {l a b : Text} {x y : ℚ} (e : words l = ["ORIGIN".toList, a, b]) (ha : pyFloat a = .ok x) (hb : pyFloat b = .ok y) :
    headLine h l = .ok { h with origin := some [x, y] } := by
  rw [headLine_origin h e, mapM_two ha hb]; rfl

theorem headLine_num' (h : Head) {l a : Text} {x : ℤ} (e : words l = ["NUMDATA".toList, a]) (ha : pyInt a = .ok x) :
    headLine h l = .ok { h with num := some x } := by
  rw [headLine_num h e, ha]; rfl

theorem foldlM_comments (cs ls : List Text) (h h' : Head) (hl : ∀ l ∈ cs, ∃ r, words l = "COMMENT".toList :: r)
    (e : ls.foldlM headLine h = Except.ok h') : (ls ++ cs).foldlM headLine h = .ok h' := by
  rw [List.foldlM_append, e]
  exact headLines_comments cs hl h'

/-- What `read_header` gets from the header written. -/
theorem headLines_header (i : GInfo) (num : ℕ) : (splitlines (headerText i num)).foldlM headLine {} =
    .ok ⟨some [(i.shape.1 : ℤ), (i.shape.2 : ℤ)], some [round6 i.spacing.1, round6 i.spacing.2],
      some [round6 i.origin.1, round6 i.origin.2], some ["IX".toList, "IY".toList, "N".toList, "T".toList, "M".toList, "U".toList, "V".toList],
      some (num : ℤ)⟩ := by
  unfold headerText
  rw [splitlines_lines _ fun l hl c hc => (headerLines_printable i num l hl c hc).noBreak]
  unfold headerLines
  apply foldlM_comments _ _ _ _ comments_words
  rw [foldlM_ok (headLine_other _ words_format (by decide +kernel)),
    foldlM_ok (headLine_origin' _ (words_origin _ _) (pyFloat_fixed6 _) (pyFloat_fixed6 _)),
    foldlM_ok (headLine_shape' _ (words_shape _ _) (pyInt_decimal _) (pyInt_decimal _)),
    foldlM_ok (headLine_spacing' _ (words_spacing _ _) (pyFloat_fixed6 _) (pyFloat_fixed6 _)),
    foldlM_ok (headLine_num' _ (words_num _) (pyInt_decimal _)),
    foldlM_ok (headLine_fields _ words_fields), List.foldlM_nil]
  rfl

end Strata.Gmx
