import Verif.Spec.SpreadingText
import Verif.Proofs.Cli
import Verif.Proofs.PyText
import Verif.Proofs.SpreadingLoop
import Verif.Proofs.SimpleText
/-!
# Proofs about spreading files
-/
namespace Strata.SpreadingText
open Strata Strata.Files Strata.PyText Strata.Spreading Strata.Cli Strata.Spec

theorem number_cons (d : ℕ) (ds : List ℕ) : number (d :: ds) = d * 10 ^ ds.length + number ds := by
  unfold number
  rw [List.reverse_cons, Nat.ofDigits_append, List.length_reverse, Nat.ofDigits_singleton]
  ring

theorem digits_of_read (s : Text) : ∀ n, s ≠ [] → readDigits 0 s = some n → ∃ ds, Digits s ds ∧ number ds = n ∧ ds.length = s.length := by
  induction s with
  | nil => intro n h; exact absurd rfl h
  | cons c s ih =>
    intro n _ h
    have hd := digit_of_readDigits _ _ _ h c (by simp)
    obtain ⟨h1, h2⟩ := digitChar_of_isDigit hd
    rw [readDigits, digitValue_eq, if_pos hd] at h
    simp only [Nat.zero_mul, Nat.zero_add, Nat.mul_zero] at h
    by_cases hs : s = []
    · subst hs
      rw [readDigits] at h
      simp only [Option.some.injEq] at h
      refine ⟨[c.toNat - 48], ?_, ?_, rfl⟩
      · have := Digits.one _ h1
        rwa [h2] at this
      · rw [← h]; simp [number]
    · have hex : ∃ m, readDigits 0 s = some m := by
        have : ∀ (s : Text) a, (∀ c ∈ s, c.isDigit) → ∃ m, readDigits a s = some m := by
          intro s
          induction s with
          | nil => intro a _; exact ⟨a, rfl⟩
          | cons d s ih =>
            intro a hd
            rw [readDigits, digitValue_eq, if_pos (hd d (by simp))]
            exact ih _ fun e he => hd e (by simp [he])
        exact this s 0 fun e he => digit_of_readDigits _ _ _ h e he
      obtain ⟨m, hm⟩ := hex
      rw [readDigits_shift s _ m hm, Option.some.injEq] at h
      obtain ⟨ds, g1, g2, g3⟩ := ih m hs hm
      refine ⟨(c.toNat - 48) :: ds, ?_, ?_, by simp [g3]⟩
      · have := Digits.more _ s ds h1 g1
        rwa [h2] at this
      · rw [number_cons, g2, g3, h]

theorem decimal_length_lt {k v : ℕ} (hk : 0 < k) (h : v < 10 ^ k) : (decimal v).length ≤ k := by
  unfold decimal
  split
  · simpa using (show 1 ≤ k from hk)
  · rw [List.length_map, List.length_reverse, Nat.digits_length_le_iff (by norm_num)]
    exact h

theorem padded_length {k v : ℕ} (hk : 0 < k) : (padded k (v % 10 ^ k)).length = k := by
  rw [length_padded]
  have := decimal_length_lt hk (Nat.mod_lt v (show 0 < 10 ^ k by positivity))
  omega

/-- A number printed with decimals is read as the rounded number. -/
theorem floatText_fixed {k : ℕ} (hk : 0 < k) (x : ℚ) : FloatText (fixed k x) (.num (rounded k x)) := by
  have hv : ((Average.pyRound (|x| * 10 ^ k)).toNat : ℤ) = Average.pyRound (|x| * 10 ^ k) :=
    Int.toNat_of_nonneg (pyRound_nonneg (by positivity))
  obtain ⟨da, a1, a2, a3⟩ := digits_of_read (decimal ((Average.pyRound (|x| * 10 ^ k)).toNat / 10 ^ k)) _ (decimal_ne_nil _) (readDigits_decimal _)
  have hpn : padded k ((Average.pyRound (|x| * 10 ^ k)).toNat % 10 ^ k) ≠ [] := by
    intro h
    have := padded_length (v := (Average.pyRound (|x| * 10 ^ k)).toNat) hk
    rw [h] at this
    simp at this
    omega
  obtain ⟨db, b1, b2, b3⟩ := digits_of_read (padded k ((Average.pyRound (|x| * 10 ^ k)).toNat % 10 ^ k)) ((Average.pyRound (|x| * 10 ^ k)).toNat % 10 ^ k) hpn
    (by
      have := readNumeral_padded k ((Average.pyRound (|x| * 10 ^ k)).toNat % 10 ^ k)
      unfold readNumeral at this
      split at this
      · simp at this
      · exact this)
  rw [padded_length hk] at b3
  have hlit : Literal (decimal ((Average.pyRound (|x| * 10 ^ k)).toNat / 10 ^ k) ++ '.' :: padded k ((Average.pyRound (|x| * 10 ^ k)).toNat % 10 ^ k))
      (.num ((Average.pyRound (|x| * 10 ^ k) : ℚ) / 10 ^ k)) := by
    have hm := Literal.decimal (decimal ((Average.pyRound (|x| * 10 ^ k)).toNat / 10 ^ k) ++ '.' :: padded k ((Average.pyRound (|x| * 10 ^ k)).toNat % 10 ^ k)) [] (da ++ db) db.length 0
      (.inr ⟨_, _, da, db, rfl, .inr a1, .inr b1, rfl, by intro h; exact a1.ne_nil.2 (List.append_eq_nil_iff.mp h).1, rfl⟩) (.inl ⟨rfl, rfl⟩)
    rw [List.append_nil] at hm
    have hnum : number (da ++ db) = (Average.pyRound (|x| * 10 ^ k)).toNat := by
      have : number (da ++ db) = number da * 10 ^ db.length + number db := by
        unfold number
        rw [List.reverse_append, Nat.ofDigits_append, List.length_reverse]
        ring
      rw [this, a2, b2, b3]
      exact Nat.div_add_mod' _ _
    rw [hnum, b3] at hm
    have e : (((Average.pyRound (|x| * 10 ^ k)).toNat : ℕ) : ℚ) * 10 ^ ((0 : ℤ) - (k : ℤ)) = (Average.pyRound (|x| * 10 ^ k) : ℚ) / 10 ^ k := by
      have : (((Average.pyRound (|x| * 10 ^ k)).toNat : ℕ) : ℚ) = (Average.pyRound (|x| * 10 ^ k) : ℚ) := by exact_mod_cast hv
      rw [this, zero_sub, zpow_neg, zpow_natCast, div_eq_mul_inv]
    rw [e] at hm
    exact hm
  unfold fixed rounded
  simp only
  by_cases hx : x < 0
  · rw [if_pos hx, if_pos hx]
    refine ⟨[], ['-'], _, [], -1, _, by simp, by simp [Blank], by simp [Blank], .minus, hlit, ?_⟩
    rw [neg_one_mul]
    exact .negNum _
  · rw [if_neg hx, if_neg hx]
    refine ⟨[], [], _, [], 1, _, by simp, by simp [Blank], by simp [Blank], .none, hlit, ?_⟩
    rw [one_mul]
    exact .pos _

theorem float?_fixed {k : ℕ} (hk : 0 < k) (x : ℚ) : float? (fixed k x) = some (.num (rounded k x)) := (float?_iff _ _).mpr (floatText_fixed hk x)

theorem fixed_ne_nil (k : ℕ) (x : ℚ) : fixed k x ≠ [] := by simp [fixed]

theorem fixed_chars (k : ℕ) (x : ℚ) : ∀ c ∈ fixed k x, 45 ≤ c.toNat ∧ c.toNat ≤ 57 := by
  intro c hc
  unfold fixed at hc
  simp only [List.mem_append, List.mem_cons] at hc
  rcases hc with (h | h) | rfl | h
  · split at h
    · simp only [List.mem_singleton] at h; subst h; decide
    · simp at h
  · have := digit_range (digit_decimal _ c h); omega
  · decide
  · have := digit_range (digit_padded _ _ c h); omega

theorem rounded_near (k : ℕ) (x : ℚ) : |rounded k x - x| ≤ 1 / 2 / 10 ^ k := by
  have hp : (0 : ℚ) < 10 ^ k := by positivity
  have h := pyRound_near (|x| * 10 ^ k)
  have e : ((Average.pyRound (|x| * 10 ^ k) : ℚ) / 10 ^ k) - |x| = ((Average.pyRound (|x| * 10 ^ k) : ℚ) - |x| * 10 ^ k) / 10 ^ k := by
    field_simp
  have h3 : abs (((Average.pyRound (|x| * 10 ^ k) : ℚ) / 10 ^ k) - |x|) ≤ 1 / 2 / 10 ^ k := by
    rw [e, abs_div, abs_of_pos hp, div_le_div_iff_of_pos_right hp]
    exact h
  unfold rounded
  split
  · rename_i hn
    rw [abs_of_neg hn] at h3 ⊢
    rw [abs_le] at h3 ⊢
    constructor <;> linarith [h3.1, h3.2]
  · rename_i hn
    rw [abs_of_nonneg (not_lt.mp hn)] at h3 ⊢
    rw [one_mul]
    exact h3

/-! ## Lines -/

theorem fileLinesAux_line (w : Text) (hw : '\n' ∉ w) : ∀ (cur rest : Text), fileLinesAux cur (w ++ rest) = fileLinesAux (w.reverse ++ cur) rest := by
  induction w with
  | nil => intro cur rest; rfl
  | cons c w ih =>
    intro cur rest
    rw [List.mem_cons, not_or] at hw
    rw [List.cons_append, fileLinesAux, if_neg (Ne.symm hw.1), ih hw.2]
    simp

theorem fileLines_join (ls : List Text) (rest : Text) : (∀ l ∈ ls, '\n' ∉ l) → fileLines (joinLines ls ++ rest) = ls ++ fileLines rest := by
  unfold joinLines
  induction ls with
  | nil => intro _; rfl
  | cons l ls ih =>
    intro h
    have ih := ih fun l' hl' => h l' (by simp [hl'])
    unfold fileLines at ih ⊢
    rw [List.flatMap_cons, List.append_assoc, List.append_assoc, fileLinesAux_line l (h l (by simp)), List.append_nil, List.singleton_append, fileLinesAux, if_pos rfl,
      List.reverse_reverse, ih]
    rfl

theorem mapM_ok_of {α β : Type} (f : α → Except Err β) (g : α → β) : ∀ l : List α, (∀ a ∈ l, f a = .ok (g a)) → l.mapM f = .ok (l.map g) := by
  intro l
  induction l with
  | nil => intro _; rfl
  | cons a l ih =>
    intro h
    rw [List.mapM_cons, h a (by simp), ih fun b hb => h b (by simp [hb])]
    rfl

/-- The four numbers of a row. -/
def rowValues (r : Row) : List Value := [.num (rounded 3 r.time), .num (rounded 3 r.radius), .num (rounded 3 r.left), .num (rounded 3 r.right)]

theorem words_row (r : Row) : words (fixed 3 r.time ++ ' ' :: (fixed 3 r.radius ++ ' ' :: (fixed 3 r.left ++ ' ' :: fixed 3 r.right))) =
    [fixed 3 r.time, fixed 3 r.radius, fixed 3 r.left, fixed 3 r.right] := by
  have hs : ∀ x, ∀ c ∈ fixed 3 x, isSpace c = false := fun x c hc => notSpace_of (by have := fixed_chars 3 x c hc; omega)
  rw [words_cons _ _ (fixed_ne_nil 3 _) (hs _), words_cons _ _ (fixed_ne_nil 3 _) (hs _), words_cons _ _ (fixed_ne_nil 3 _) (hs _), words_single _ (fixed_ne_nil 3 _) (hs _)]

theorem row_chars (r : Row) : ∀ c ∈ fixed 3 r.time ++ ' ' :: (fixed 3 r.radius ++ ' ' :: (fixed 3 r.left ++ ' ' :: fixed 3 r.right)), c ≠ '\n' ∧ c ≠ '#' ∧ c ≠ '@' := by
  have hs : ∀ x, ∀ c ∈ fixed 3 x, c ≠ '\n' ∧ c ≠ '#' ∧ c ≠ '@' := by
    intro x c hc
    have h := fixed_chars 3 x c hc
    refine ⟨?_, ?_, ?_⟩
    · rintro rfl; exact absurd h (by decide)
    · rintro rfl; exact absurd h (by decide)
    · rintro rfl; exact absurd h (by decide)
  intro c hc
  simp only [List.mem_append, List.mem_cons] at hc
  rcases hc with h | rfl | h | rfl | h | rfl | h
  · exact hs _ c h
  · decide
  · exact hs _ c h
  · decide
  · exact hs _ c h
  · decide
  · exact hs _ c h

theorem numbers_row (r : Row) : numbers [fixed 3 r.time, fixed 3 r.radius, fixed 3 r.left, fixed 3 r.right] = .ok (rowValues r) := by
  unfold numbers
  rw [mapM_ok_of _ (fun w => (float? w).getD .nan)]
  · simp [float?_fixed, rowValues]
  · intro w hw
    simp only [List.mem_cons, List.not_mem_nil, or_false] at hw
    rcases hw with rfl | rfl | rfl | rfl <;> simp [float?_fixed]

/-- A line that begins with a comment sign. -/
def IsComment (l : Text) : Prop := l.head? = some '#'

theorem words_comment {l : Text} (h : IsComment l) : words (l.takeWhile (· ≠ '#')) = [] := by
  cases l with
  | nil => simp [IsComment] at h
  | cons c l =>
    simp only [IsComment, List.head?_cons, Option.some.injEq] at h
    subst h
    rfl

theorem header_comments (h : Header) : ∀ l ∈ headerLines h, IsComment l := by
  intro l hl
  unfold headerLines at hl
  simp only [List.mem_cons, List.not_mem_nil, or_false] at hl
  rcases hl with rfl | rfl | rfl | rfl | rfl | rfl | rfl | rfl | rfl | rfl | rfl | rfl | rfl | rfl <;> rfl

/-- Fixed texts without a character. -/
theorem header_chars (h : Header) (P : Char → Prop) (hh : h.All P) (hP : ∀ c : Char, 32 ≤ c.toNat ∧ c.toNat ≤ 126 ∧ c ≠ '@' → P c) : ∀ l ∈ headerLines h, ∀ c ∈ l, P c := by
  intro l hl
  unfold headerLines at hl
  have fix : ∀ s : Text, (∀ c ∈ s, 32 ≤ c.toNat ∧ c.toNat ≤ 126 ∧ c ≠ '@') → ∀ c ∈ s, P c := fun s hs c hc => hP c (hs c hc)
  have app : ∀ s t : Text, (∀ c ∈ s, P c) → (∀ c ∈ t, P c) → ∀ c ∈ s ++ t, P c := by
    intro s t h1 h2 c hc
    rcases List.mem_append.mp hc with h | h
    · exact h1 c h
    · exact h2 c h
  simp only [List.mem_cons, List.not_mem_nil, or_false] at hl
  rcases hl with rfl | rfl | rfl | rfl | rfl | rfl | rfl | rfl | rfl | rfl | rfl | rfl | rfl | rfl
  · exact fix _ (by decide)
  · exact fix _ (by decide)
  · exact app _ _ (fix _ (by decide)) hh.date
  · exact app _ _ (fix _ (by decide)) hh.version
  · exact fix _ (by decide)
  · exact fix _ (by decide)
  · exact app _ _ (fix _ (by decide)) hh.base
  · exact app _ _ (app _ _ (app _ _ (fix _ (by decide)) hh.begin_) (fix _ (by decide))) hh.end_
  · exact app _ _ (fix _ (by decide)) hh.floor
  · exact app _ _ (fix _ (by decide)) hh.dt
  · exact app _ _ (fix _ (by decide)) hh.cutoff
  · exact app _ _ (fix _ (by decide)) hh.radius
  · exact app _ _ (fix _ (by decide)) hh.bins
  · exact fix _ (by decide)

theorem impact_lines (t : ℚ) (path : Text) (P : Char → Prop) (hp : ∀ c ∈ fileName path, P c) (hP : ∀ c : Char, 32 ≤ c.toNat ∧ c.toNat ≤ 126 ∧ c ≠ '@' → P c) :
    ∀ l ∈ lineTexts (.impact t path), IsComment l ∧ ∀ c ∈ l, P c := by
  have fix : ∀ s : Text, (∀ c ∈ s, 32 ≤ c.toNat ∧ c.toNat ≤ 126 ∧ c ≠ '@') → ∀ c ∈ s, P c := fun s hs c hc => hP c (hs c hc)
  have app : ∀ s t : Text, (∀ c ∈ s, P c) → (∀ c ∈ t, P c) → ∀ c ∈ s ++ t, P c := by
    intro s t h1 h2 c hc
    rcases List.mem_append.mp hc with h | h
    · exact h1 c h
    · exact h2 c h
  intro l hl
  simp only [lineTexts, List.mem_cons, List.not_mem_nil, or_false] at hl
  rcases hl with rfl | rfl | rfl | rfl | rfl
  · exact ⟨rfl, fix _ (by decide)⟩
  · refine ⟨rfl, app _ _ (app _ _ (fix _ (by decide)) (fix _ fun c hc => ?_)) (fix _ (by decide))⟩
    have := fixed_chars 3 t c hc
    refine ⟨by omega, by omega, ?_⟩
    rintro rfl
    exact absurd this (by decide)
  · exact ⟨rfl, app _ _ (app _ _ (fix _ (by decide)) hp) (fix _ (by decide))⟩
  · exact ⟨rfl, fix _ (by decide)⟩
  · exact ⟨rfl, fix _ (by decide)⟩

/-- The lines of a saved file: comments, then the rows. -/
theorem saved_lines (h : Header) (dt t0 : ℚ) (flag : Bool) (frames : List Frame) (P : Char → Prop) (hh : h.All P) (hp : ∀ f ∈ frames, ∀ c ∈ fileName f.path, P c)
    (hP : ∀ c : Char, 32 ≤ c.toNat ∧ c.toNat ≤ 126 ∧ c ≠ '@' → P c) :
    ∃ comments : List Text, headerLines h ++ (collect dt t0 true flag frames).lines.flatMap lineTexts = comments ++ (collect dt t0 true flag frames).rows.flatMap (fun r => lineTexts (.row r)) ∧
      ∀ l ∈ comments, IsComment l ∧ ∀ c ∈ l, P c := by
  obtain ⟨new, h1, h2, -⟩ := loop_lines dt frames ⟨initPeriodicInfo, t0, [], flag, []⟩ 0
  refine ⟨headerLines h ++ (if flag then [] else ((frames.zipIdx 0).find? (fun f => f.1.edges.isSome)).toList.map (fun f => Line.impact (f.2 * dt) f.1.path)).flatMap lineTexts, ?_, ?_⟩
  · unfold collect
    rw [h1, h2]
    simp [List.flatMap_map]
  · intro l hl
    rcases List.mem_append.mp hl with hl | hl
    · exact ⟨header_comments h l hl, header_chars h P hh hP l hl⟩
    · obtain ⟨x, hx, hl⟩ := List.mem_flatMap.mp hl
      split at hx
      · simp at hx
      · obtain ⟨f, hf, rfl⟩ := List.mem_map.mp hx
        have hf' : f ∈ frames.zipIdx 0 := List.mem_of_find?_eq_some (Option.mem_toList.mp hf)
        have : f.1 ∈ frames := by
          have := List.mem_map_of_mem (f := Prod.fst) hf'
          simpa using this
        exact impact_lines _ _ P (hp _ this) hP l hl

theorem rows_texts (rows : List Row) : rows.flatMap (fun r => lineTexts (.row r)) =
    rows.map fun r => fixed 3 r.time ++ ' ' :: (fixed 3 r.radius ++ ' ' :: (fixed 3 r.left ++ ' ' :: fixed 3 r.right)) := by
  induction rows with
  | nil => rfl
  | cons r rows ih => rw [List.flatMap_cons, ih]; rfl

theorem takeWhile_eq_self {α : Type} {p : α → Bool} {l : List α} (h : ∀ a ∈ l, p a = true) : l.takeWhile p = l := (takeWhile_all p l h).1

/-- The table read from a saved file. -/
theorem saved_table (h : Header) (dt t0 : ℚ) (flag : Bool) (frames : List Frame) (hh : h.All (· ≠ '\n')) (hp : ∀ f ∈ frames, ∀ c ∈ fileName f.path, c ≠ '\n') :
    (((fileLines (savedFile h (collect dt t0 true flag frames).lines)).map fun l => words (l.takeWhile (· ≠ '#'))).filter (· ≠ [])).mapM numbers =
      .ok ((collect dt t0 true flag frames).rows.map rowValues) := by
  obtain ⟨comments, e, hc⟩ := saved_lines h dt t0 flag frames (· ≠ '\n') hh hp (fun c hc => by rintro rfl; exact absurd hc.1 (by decide))
  have hl := fileLines_join (comments ++ (collect dt t0 true flag frames).rows.flatMap (fun r => lineTexts (.row r))) [] (by
    intro l hl
    rcases List.mem_append.mp hl with hl | hl
    · intro hn; exact (hc l hl).2 _ hn rfl
    · rw [rows_texts] at hl
      obtain ⟨r, -, rfl⟩ := List.mem_map.mp hl
      intro hn; exact (row_chars r _ hn).1 rfl)
  rw [List.append_nil] at hl
  unfold savedFile
  rw [e, hl, rows_texts]
  have hcom : (comments.map fun l => words (l.takeWhile (· ≠ '#'))).filter (· ≠ []) = [] := by
    rw [List.filter_eq_nil_iff]
    intro w hw
    obtain ⟨l, hl, rfl⟩ := List.mem_map.mp hw
    simp only [words_comment (hc l hl).1]
    simp
  have hrow : (((collect dt t0 true flag frames).rows.map fun r => fixed 3 r.time ++ ' ' :: (fixed 3 r.radius ++ ' ' :: (fixed 3 r.left ++ ' ' :: fixed 3 r.right))).map
      fun l => words (l.takeWhile (· ≠ '#'))) = (collect dt t0 true flag frames).rows.map fun r => [fixed 3 r.time, fixed 3 r.radius, fixed 3 r.left, fixed 3 r.right] := by
    rw [List.map_map]
    refine List.map_congr_left fun r _ => ?_
    simp only [Function.comp_apply]
    rw [takeWhile_eq_self (fun c hc => by simpa using (row_chars r c hc).2.1), words_row]
  have hf : fileLines [] = [] := rfl
  rw [hf, List.append_nil, List.map_append, List.filter_append, hcom, List.nil_append, hrow, List.filter_eq_self.mpr (by
    intro w hw
    obtain ⟨r, -, rfl⟩ := List.mem_map.mp hw
    simp)]
  rw [Simple.mapM_map', mapM_ok_of _ rowValues _ (fun r _ => numbers_row r)]

theorem tableWidth_rows (rows : List Row) (h : rows ≠ []) : tableWidth (rows.map rowValues) = .ok 4 := by
  cases rows with
  | nil => exact absurd rfl h
  | cons r rows =>
    rw [List.map_cons, tableWidth, if_pos]
    · rfl
    · rw [List.all_eq_true]
      intro q hq
      obtain ⟨s, -, rfl⟩ := List.mem_map.mp hq
      rfl

/-- The three series of a saved file. -/
def rowSeries (name : Text) (rows : List Row) : List Named :=
  [⟨name ++ ".1".toList, rows.map fun r => (.num (rounded 3 r.time), .num (rounded 3 r.radius))⟩,
    ⟨name ++ ".2".toList, rows.map fun r => (.num (rounded 3 r.time), .num (rounded 3 r.left))⟩,
    ⟨name ++ ".3".toList, rows.map fun r => (.num (rounded 3 r.time), .num (rounded 3 r.right))⟩]

theorem getSeries_rows (name : Text) (rows : List Row) (col num : ℕ) (F : Row → ℚ) (hF : ∀ r, (rowValues r).getD col .nan = .num (F r)) :
    getSeries (rows.map rowValues) col name num = ⟨name ++ '.' :: decimal num, rows.map fun r => (.num (rounded 3 r.time), .num (F r))⟩ := by
  unfold getSeries
  congr 1
  rw [List.map_map, List.filter_eq_self.mpr]
  · refine List.map_congr_left fun r _ => ?_
    simp only [Function.comp_apply, hF]
    rfl
  · intro p hp
    obtain ⟨r, -, rfl⟩ := List.mem_map.mp hp
    simp only [Function.comp_apply, hF]
    simp

theorem splitAux_none (sep : Text) (c : Char) (hc : sep.head? = some c) (s : Text) : ∀ cur, c ∉ s → splitAux sep cur 0 s = [cur.reverse ++ s] := by
  induction s with
  | nil => intro cur _; simp [splitAux]
  | cons d s ih =>
    intro cur h
    rw [List.mem_cons, not_or] at h
    rw [splitAux, if_neg, ih _ h.2]
    · simp
    · cases sep with
      | nil => simp at hc
      | cons x sep =>
        simp only [List.head?_cons, Option.some.injEq] at hc
        subst hc
        simp only [List.isPrefixOf_cons₂, Bool.and_eq_true, beq_iff_eq, not_and]
        intro e
        exact absurd e h.1

theorem mem_joinLines {ls : List Text} {c : Char} (h : c ∈ joinLines ls) : c = '\n' ∨ ∃ l ∈ ls, c ∈ l := by
  unfold joinLines at h
  obtain ⟨l, hl, hc⟩ := List.mem_flatMap.mp h
  rcases List.mem_append.mp hc with hc | hc
  · exact .inr ⟨l, hl, hc⟩
  · exact .inl (by simpa using hc)

/-! ## Files with several series -/

/-- A text in which no separator begins, whatever follows: the sign `@` is followed by two characters, other than `ta`. -/
def Safe : Text → Prop
  | [] => True
  | c :: s => (c ≠ '@' ∨ (2 ≤ s.length ∧ s.take 2 ≠ ['t', 'a'])) ∧ Safe s

theorem safe_append {a b : Text} (ha : Safe a) (hb : Safe b) : Safe (a ++ b) := by
  induction a with
  | nil => exact hb
  | cons c a ih =>
    obtain ⟨h1, h2⟩ := ha
    refine ⟨?_, ih h2⟩
    rcases h1 with h | ⟨h, h'⟩
    · exact .inl h
    · refine .inr ⟨by simp; omega, ?_⟩
      change List.take 2 (a ++ b) ≠ _
      rw [List.take_append_of_le_length h]
      exact h'

theorem safe_of {a : Text} (h : ∀ c ∈ a, c ≠ '@') : Safe a := by
  induction a with
  | nil => trivial
  | cons c a ih => exact ⟨.inl (h c (by simp)), ih fun d hd => h d (by simp [hd])⟩

theorem split_safe (w : Text) (hw : Safe w) : ∀ cur rest, splitAux target cur 0 (w ++ rest) = splitAux target (w.reverse ++ cur) 0 rest := by
  induction w with
  | nil => intro cur rest; rfl
  | cons c w ih =>
    intro cur rest
    obtain ⟨h1, h2⟩ := hw
    rw [List.cons_append, splitAux, if_neg, ih h2]
    · simp
    · intro hp
      rcases h1 with h | ⟨h, h'⟩
      · rw [show target = '@' :: "target ".toList from rfl, List.isPrefixOf_cons₂, Bool.and_eq_true, beq_iff_eq] at hp
        exact h hp.1.symm
      · rcases w with _ | ⟨a, _ | ⟨b, w⟩⟩
        · simp at h
        · simp at h
        · rw [show target = '@' :: 't' :: 'a' :: "rget ".toList from rfl] at hp
          simp only [List.cons_append, List.isPrefixOf_cons₂, Bool.and_eq_true, beq_iff_eq] at hp
          apply h'
          rw [← hp.2.1, ← hp.2.2.1]
          rfl

theorem split_target (cur rest : Text) : splitAux target cur 0 (target ++ rest) = cur.reverse :: splitAux target [] 0 rest := by
  rw [show target ++ rest = '@' :: ("target ".toList ++ rest) from rfl, splitAux, if_pos]
  · rfl
  · rw [show ('@' :: ("target ".toList ++ rest)) = target ++ rest from rfl, List.isPrefixOf_iff_prefix]
    exact List.prefix_append _ _

/-- The part of one data set. -/
def setPart (toStr : ToString) (i : ℕ) (s : Series) (last : Bool) : Text :=
  "G0.S".toList ++ decimal i ++ '\n' :: ("@type xy".toList ++ '\n' :: (toStr s ++ '\n' :: (if last then [] else ['&', '\n'])))

/-- The parts of the data sets. -/
def setParts (toStr : ToString) : ℕ → List Series → List Text
  | _, [] => []
  | i, s :: rest => setPart toStr i s (decide (rest = [])) :: setParts toStr (i + 1) rest

theorem decimal_safe (n : ℕ) : ∀ c ∈ decimal n, c ≠ '@' ∧ isBreak c = false := by
  intro c hc
  have h := digit_range (digit_decimal n c hc)
  refine ⟨by rintro rfl; exact absurd h (by decide), ?_⟩
  exact Printable.noBreak ⟨by omega, by omega⟩

theorem g0_noBreak : ∀ c ∈ "G0.S".toList, isBreak c = false := by decide

theorem type_noBreak : ∀ c ∈ "@type xy".toList, isBreak c = false := by decide

theorem setPart_safe (toStr : ToString) (h : ∀ s, ∀ c ∈ toStr s, c ≠ '@') (i : ℕ) (s : Series) (last : Bool) : Safe (setPart toStr i s last) := by
  unfold setPart
  refine safe_append (safe_append (safe_of (by decide)) (safe_of fun c hc => (decimal_safe i c hc).1)) ⟨.inl (by decide), ?_⟩
  refine safe_append ?_ ⟨.inl (by decide), safe_append (safe_of (h s)) ⟨.inl (by decide), ?_⟩⟩
  · refine ⟨.inr ⟨by decide, by decide⟩, safe_of (by decide)⟩
  · cases last
    · exact safe_of (by decide)
    · trivial

theorem dataSets_cons (toStr : ToString) (i : ℕ) (s : Series) (rest : List Series) :
    dataSets toStr i (s :: rest) = target ++ (setPart toStr i s (decide (rest = [])) ++ dataSets toStr (i + 1) rest) := by
  rw [dataSets]
  unfold setPart
  by_cases h : rest = []
  · simp [h]
  · simp [h]

theorem split_sets (toStr : ToString) (h : ∀ s, ∀ c ∈ toStr s, c ≠ '@') : ∀ (ss : List Series) (i : ℕ) (cur : Text),
    splitAux target cur 0 (dataSets toStr i ss) = cur.reverse :: setParts toStr i ss := by
  intro ss
  induction ss with
  | nil => intro i cur; rfl
  | cons s ss ih =>
    intro i cur
    rw [dataSets_cons, split_target, split_safe _ (setPart_safe toStr h i s _), ih, List.append_nil, List.reverse_reverse]
    rfl

theorem joinLines_append (a b : List Text) : joinLines (a ++ b) = joinLines a ++ joinLines b := by
  unfold joinLines; rw [List.flatMap_append]

theorem intercalate_newline (ls : List Text) (h : ls ≠ []) : ['\n'].intercalate ls ++ ['\n'] = joinLines ls := by
  unfold joinLines
  induction ls with
  | nil => exact absurd rfl h
  | cons l ls ih =>
    cases ls with
    | nil => simp [List.intercalate]
    | cons m ls =>
      rw [List.flatMap_cons, ← ih (by simp)]
      simp [List.intercalate, List.intersperse]

theorem setPart_lines (toStr : ToString) (i : ℕ) (s : Series) (last : Bool) (ls : List Text) (hls : ls ≠ []) (h : toStr s = ['\n'].intercalate ls) :
    setPart toStr i s last = joinLines (["G0.S".toList ++ decimal i, "@type xy".toList] ++ ls ++ (if last then [] else [['&']])) := by
  rw [joinLines_append, joinLines_append, ← intercalate_newline ls hls, ← h]
  unfold setPart
  cases last <;> simp [joinLines]

/-- The table read for a series that is not empty. -/
theorem graphRows_set (toStr : ToString) (rnd : ℚ → ℚ) (hp : Prints toStr rnd) (i : ℕ) (s : Series) (hs : s ≠ []) (last : Bool) :
    graphRows (setPart toStr i s last) = .ok (s.map fun p => [.num (rnd p.1), .num (rnd p.2)]) := by
  obtain ⟨ls, e, hl⟩ := hp.lines s hs
  have hlen := hl.length_eq
  have hne : ls ≠ [] := by rintro rfl; exact hs (List.length_eq_zero_iff.mp hlen)
  have hmem : ∀ l ∈ ls, ∃ p, (∀ c ∈ l, isBreak c = false ∧ c ≠ '@') ∧ ∃ a b, words l = [a, b] ∧ FloatText a (.num (rnd p.1)) ∧ FloatText b (.num (rnd (p : ℚ × ℚ).2)) := by
    intro l hm
    clear hne e hs hlen
    induction hl with
    | nil => simp at hm
    | cons h _ ih =>
      rcases List.mem_cons.mp hm with rfl | hm
      · exact ⟨_, h⟩
      · exact ih hm
  unfold graphRows
  rw [setPart_lines toStr i s last ls hne e, joinLines, splitlines_lines]
  · have hdrop : (["G0.S".toList ++ decimal i, "@type xy".toList] ++ ls ++ (if last then [] else [['&']])).drop 1 = "@type xy".toList :: (ls ++ (if last then [] else [['&']])) := rfl
    have hfilter : (("@type xy".toList :: (ls ++ (if last then [] else [['&']]))).filter fun l => !(l.head? = some '@') && decide (l ≠ ['&'])) = ls := by
      rw [List.filter_cons_of_neg (by decide), List.filter_append]
      have h2 : ((if last then [] else [['&']]) : List Text).filter (fun l => !(l.head? = some '@') && decide (l ≠ ['&'])) = [] := by
        cases last <;> rfl
      rw [h2, List.append_nil, List.filter_eq_self]
      intro l hm
      obtain ⟨p, hc, a, b, hw, -⟩ := hmem l hm
      rw [Bool.and_eq_true]
      constructor
      · rw [Bool.not_eq_true', decide_eq_false_iff_not]
        intro h0
        exact (hc '@' (List.mem_of_mem_head? h0)).2 rfl
      · rw [decide_eq_true_iff]
        rintro rfl
        have hw' : words ['&'] = [['&']] := rfl
        rw [hw'] at hw
        simp at hw
    rw [hdrop, hfilter]
    have hmap : ls.mapM (fun l => numbers (words l)) = .ok (s.map fun p => [.num (rnd p.1), .num (rnd p.2)]) := by
      clear hne e hs hmem hdrop hfilter hlen
      induction hl with
      | nil => rfl
      | cons h _ ih =>
        obtain ⟨-, a, b, hw, ha, hb⟩ := h
        rw [List.mapM_cons, ih, hw]
        unfold numbers
        simp only [List.mapM_cons, List.mapM_nil, (float?_iff _ _).mpr ha, (float?_iff _ _).mpr hb, Option.elim_some]
        rfl
    rw [hmap, Gmx.ok_bind]
    have hw : tableWidth (s.map fun p => [.num (rnd p.1), .num (rnd p.2)]) = .ok 2 := by
      cases s with
      | nil => exact absurd rfl hs
      | cons p s =>
        rw [List.map_cons, tableWidth, if_pos]
        · rfl
        · rw [List.all_eq_true]
          intro q hq
          obtain ⟨s, -, rfl⟩ := List.mem_map.mp hq
          rfl
    rw [hw]
    rfl
  · intro l hm c hc
    simp only [List.cons_append, List.nil_append, List.mem_cons, List.mem_append] at hm
    rcases hm with rfl | rfl | hm | hm
    · rcases List.mem_append.mp hc with hc | hc
      · exact g0_noBreak c hc
      · exact (decimal_safe i c hc).2
    · exact type_noBreak c hc
    · obtain ⟨p, h, -⟩ := hmem l hm
      exact (h c hc).1
    · cases last
      · simp at hm; subst hm; simp at hc; subst hc; decide
      · simp at hm

theorem mapM_err {α β : Type} (f : α → Except Err β) {a : α} {e : Err} : ∀ l : List α, a ∈ l → f a = .error e → ∃ e, l.mapM f = .error e := by
  intro l
  induction l with
  | nil => intro h; simp at h
  | cons b l ih =>
    intro h ha
    rw [List.mapM_cons]
    cases hb : f b with
    | error e' => exact ⟨e', rfl⟩
    | ok v =>
      rcases List.mem_cons.mp h with rfl | h
      · rw [ha] at hb; cases hb
      · obtain ⟨e', he⟩ := ih h ha
        rw [he]
        exact ⟨e', rfl⟩

/-- An empty series makes the file unreadable. -/
theorem graphRows_empty (toStr : ToString) (rnd : ℚ → ℚ) (hp : Prints toStr rnd) (i : ℕ) (last : Bool) :
    ∃ e, graphRows (setPart toStr i [] last) = .error e := by
  obtain ⟨hc, hne, w, hw, hv⟩ := hp.empty
  unfold graphRows
  rw [setPart_lines toStr i [] last [toStr []] (by simp) (by simp [List.intercalate]), joinLines, splitlines_lines]
  · have hin : toStr [] ∈ ((["G0.S".toList ++ decimal i, "@type xy".toList] ++ [toStr []] ++ (if last then [] else [['&']])).drop 1).filter
        fun l => !(l.head? = some '@') && decide (l ≠ ['&']) := by
      rw [List.mem_filter]
      refine ⟨by simp, ?_⟩
      rw [Bool.and_eq_true]
      constructor
      · rw [Bool.not_eq_true', decide_eq_false_iff_not]
        intro h0
        exact (hc '@' (List.mem_of_mem_head? h0)).2 rfl
      · rw [decide_eq_true_iff]; exact hne
    have hnum : ∃ e, numbers (words (toStr [])) = .error e := by
      unfold numbers
      refine mapM_err _ (e := .valueError) _ hw ?_
      cases hf : float? w with
      | none => rfl
      | some v => exact absurd ((float?_iff _ _).mp hf) (hv v)
    obtain ⟨e, he⟩ := hnum
    obtain ⟨e', he'⟩ := mapM_err (fun l => numbers (words l)) _ hin he
    rw [he']
    exact ⟨e', rfl⟩
  · intro l hm c hcl
    simp only [List.cons_append, List.nil_append, List.mem_cons, List.mem_append] at hm
    rcases hm with rfl | rfl | rfl | hm
    · rcases List.mem_append.mp hcl with hcl | hcl
      · exact g0_noBreak c hcl
      · exact (decimal_safe i c hcl).2
    · exact type_noBreak c hcl
    · exact (hc c hcl).1
    · cases last
      · simp at hm; subst hm; simp at hcl; subst hcl; decide
      · simp at hm

end Strata.SpreadingText
