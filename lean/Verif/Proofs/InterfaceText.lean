import Verif.Spec.InterfaceText
import Verif.Proofs.SpreadingText
import Verif.Proofs.FilesFS
import Verif.Proofs.InterfaceShape
/-!
# Proofs about interface files as text
-/
namespace Strata.InterfaceText
open Strata Strata.Files Strata.PyText Strata.Flow Strata.Interface Strata.InterfaceFiles Strata.Cli Strata.SpreadingText Strata.Spec

/-! ## Tables -/

/-- A word of a table. -/
structure Word (w : Text) : Prop where
  ne : w ≠ []
  space : ∀ c ∈ w, isSpace c = false
  chars : ∀ c ∈ w, c ≠ '\n' ∧ c ≠ '#'

theorem words_spaced : ∀ ws : List Text, (∀ w ∈ ws, Word w) → words (spaced ws) = ws
  | [], _ => rfl
  | [w], h => words_single w (h w (by simp)).ne (h w (by simp)).space
  | w :: v :: ws, h => by
    rw [spaced, words_cons _ _ (h w (by simp)).ne (h w (by simp)).space, words_spaced (v :: ws) fun u hu => h u (by simp [hu])]
    simp

theorem spaced_chars : ∀ ws : List Text, (∀ w ∈ ws, Word w) → ∀ c ∈ spaced ws, c ≠ '\n' ∧ c ≠ '#'
  | [], _ => by simp [spaced]
  | [w], h => (h w (by simp)).chars
  | w :: v :: ws, h => by
    intro c hc
    rw [spaced, List.mem_append, List.mem_cons] at hc
    · rcases hc with hc | rfl | hc
      · exact (h w (by simp)).chars c hc
      · decide
      · exact spaced_chars (v :: ws) (fun u hu => h u (by simp [hu])) c hc
    · simp

/-- The table in a file of comments and rows. -/
theorem tableWords_file (comments : List Text) (rows : List (List Text)) (hc : ∀ l ∈ comments, IsComment l ∧ '\n' ∉ l)
    (hr : ∀ r ∈ rows, r ≠ [] ∧ ∀ w ∈ r, Word w) : tableWords (joinLines (comments ++ rows.map spaced)) = rows := by
  have hl := fileLines_join (comments ++ rows.map spaced) [] (by
    intro l hl
    rcases List.mem_append.mp hl with hl | hl
    · exact (hc l hl).2
    · obtain ⟨r, h, rfl⟩ := List.mem_map.mp hl
      intro hn; exact (spaced_chars r (hr r h).2 _ hn).1 rfl)
  rw [List.append_nil] at hl
  unfold tableWords
  rw [hl]
  have hcom : (comments.map fun l => words (l.takeWhile (· ≠ '#'))).filter (· ≠ []) = [] := by
    rw [List.filter_eq_nil_iff]
    intro w hw
    obtain ⟨l, hl, rfl⟩ := List.mem_map.mp hw
    simp only [words_comment (hc l hl).1]
    simp
  have hrow : ((rows.map spaced).map fun l => words (l.takeWhile (· ≠ '#'))) = rows := by
    rw [List.map_map]
    conv_rhs => rw [← List.map_id rows]
    refine List.map_congr_left fun r h => ?_
    simp only [Function.comp_apply, id_eq]
    rw [takeWhile_eq_self (fun c hc => by simpa using (spaced_chars r (hr r h).2 c hc).2), words_spaced r (hr r h).2]
  have hf : fileLines [] = [] := rfl
  rw [hf, List.append_nil, List.map_append, List.filter_append, hcom, List.nil_append, hrow, List.filter_eq_self.mpr (by
    intro w hw
    simpa using (hr w hw).1)]

/-! ## Numbers -/

theorem word_fixed (k : ℕ) (x : ℚ) : Word (fixed k x) := by
  refine ⟨fixed_ne_nil k x, fun c hc => notSpace_of (by have := fixed_chars k x c hc; omega), fun c hc => ?_⟩
  have h := fixed_chars k x c hc
  constructor
  · rintro rfl; exact absurd h (by decide)
  · rintro rfl; exact absurd h (by decide)

theorem pyRound_neg (x : ℚ) : Average.pyRound (-x) = -Average.pyRound x := by
  have hf1 : (⌊x⌋ : ℚ) ≤ x := Int.floor_le x
  have hf2 : x < ⌊x⌋ + 1 := Int.lt_floor_add_one x
  rcases eq_or_lt_of_le hf1 with h | h
  · rw [← h]
    have : Average.pyRound (⌊x⌋ : ℚ) = ⌊x⌋ := Average.pyRound_int ⌊x⌋
    have h2 : Average.pyRound (-(⌊x⌋ : ℚ)) = -⌊x⌋ := by
      have := Average.pyRound_int (-⌊x⌋)
      rwa [Int.cast_neg] at this
    rw [this, h2]
  · have hfl : ⌊-x⌋ = -⌊x⌋ - 1 := by
      rw [Int.floor_eq_iff]
      push_cast
      constructor <;> linarith
    unfold Average.pyRound
    simp only [hfl]
    push_cast
    rcases lt_trichotomy (x - ⌊x⌋) (1 / 2) with h1 | h1 | h1
    · rw [if_pos h1, if_neg (by linarith), if_pos (by linarith)]
      ring
    · rw [if_neg (show ¬ (-x - (-(⌊x⌋ : ℚ) - 1) < 1 / 2) by linarith), if_neg (show ¬ (1 / 2 < -x - (-(⌊x⌋ : ℚ) - 1)) by linarith),
        if_neg (show ¬ (x - (⌊x⌋ : ℚ) < 1 / 2) by linarith), if_neg (show ¬ (1 / 2 < x - (⌊x⌋ : ℚ)) by linarith)]
      rcases Int.even_or_odd ⌊x⌋ with ⟨a, ha⟩ | ⟨a, ha⟩
      · rw [if_neg (show ¬ (-⌊x⌋ - 1) % 2 = 0 by omega), if_pos (show ⌊x⌋ % 2 = 0 by omega)]
        ring
      · rw [if_pos (show (-⌊x⌋ - 1) % 2 = 0 by omega), if_neg (show ¬ ⌊x⌋ % 2 = 0 by omega)]
        ring
    · rw [if_pos (by linarith), if_neg (by linarith), if_pos (by linarith)]
      ring

/-- The two ways to write rounding to three decimals agree. -/
theorem rounded_eq_written (x : ℚ) : rounded 3 x = written x := by
  unfold rounded written
  by_cases h : x < 0
  · rw [if_pos h, abs_of_neg h, show -x * 10 ^ 3 = -(1000 * x) by ring, pyRound_neg]
    push_cast
    ring
  · rw [if_neg h, abs_of_nonneg (not_lt.mp h), show x * 10 ^ 3 = 1000 * x by ring]
    norm_num

/-! ## The header -/

theorem headLines_comments (h : Head) (hh : h.OneLine) : ∀ l ∈ headLines h, IsComment l ∧ '\n' ∉ l := by
  have app : ∀ s t : Text, '\n' ∉ s → '\n' ∉ t → '\n' ∉ s ++ t := by
    intro s t h1 h2 hc
    rcases List.mem_append.mp hc with h | h
    · exact h1 h
    · exact h2 h
  intro l hl
  unfold headLines optionLines at hl
  simp only [List.mem_append, List.mem_cons, List.not_mem_nil, or_false, List.mem_map] at hl
  rcases hl with (((hl | hl) | rfl) | hl) | rfl
  · rcases hl with rfl | rfl | rfl | rfl | rfl | rfl | rfl | rfl
    · exact ⟨rfl, by decide⟩
    · exact ⟨rfl, by decide⟩
    · exact ⟨rfl, by decide⟩
    · exact ⟨rfl, app _ _ (by decide) hh.date⟩
    · exact ⟨rfl, app _ _ (by decide) hh.version⟩
    · exact ⟨rfl, by decide⟩
    · exact ⟨rfl, app _ _ (app _ _ (by decide) hh.dir) (by decide)⟩
    · exact ⟨rfl, by decide⟩
  · obtain ⟨n, hn, rfl⟩ := hl
    exact ⟨rfl, app _ _ (app _ _ (by decide) (hh.inputs n hn)) (by decide)⟩
  · exact ⟨rfl, by decide⟩
  · rcases ho : h.options with _ | ⟨a, b, c⟩
    · rw [ho] at hl
      simp only [List.mem_cons, List.not_mem_nil, or_false] at hl
      rcases hl with rfl | rfl
      · exact ⟨rfl, by decide⟩
      · exact ⟨rfl, by decide⟩
    · rw [ho] at hl
      simp only [List.mem_cons, List.not_mem_nil, or_false] at hl
      obtain ⟨h1, h2, h3⟩ := hh.options _ ho
      rcases hl with rfl | rfl | rfl | rfl | rfl | rfl
      · exact ⟨rfl, by decide⟩
      · exact ⟨rfl, app _ _ (by decide) hh.recenter⟩
      · exact ⟨rfl, app _ _ (by decide) h1⟩
      · exact ⟨rfl, app _ _ (by decide) h2⟩
      · exact ⟨rfl, app _ _ (by decide) h3⟩
      · exact ⟨rfl, by decide⟩
  · exact ⟨rfl, by decide⟩

/-! ## Interfaces -/

theorem tableWords_interface (h : Head) (hh : h.OneLine) (pts : List Point) :
    tableWords (interfaceFile h pts) = pts.map fun p => [fixed 3 p.x, fixed 3 p.y] := by
  unfold interfaceFile
  have e : pts.map pointLine = (pts.map fun p => [fixed 3 p.x, fixed 3 p.y]).map spaced := by
    rw [List.map_map]; rfl
  rw [e, tableWords_file _ _ (headLines_comments h hh)]
  intro r hr
  obtain ⟨p, -, rfl⟩ := List.mem_map.mp hr
  refine ⟨by simp, fun w hw => ?_⟩
  simp only [List.mem_cons, List.not_mem_nil, or_false] at hw
  rcases hw with rfl | rfl <;> exact word_fixed _ _

theorem readCoords_interface (h : Head) (hh : h.OneLine) (pts : List Point) (hl : 2 ≤ pts.length) :
    readCoords (interfaceFile h pts) = .ok (.arrays (pts.map fun p => .num (written p.x)) (pts.map fun p => .num (written p.y))) := by
  match pts, hl with
  | p :: q :: rest, _ =>
    unfold readCoords
    rw [tableWords_interface h hh]
    simp only [List.map_cons, List.map_nil, float?_fixed (show 0 < 3 by norm_num), Option.getD_some, List.map_map, rounded_eq_written]
    rw [if_pos]
    · simp [Function.comp_def, float?_fixed (show 0 < 3 by norm_num), rounded_eq_written]
    · simp [Function.comp_def]

theorem mapM_finite (l : List ℚ) : (l.map Value.num).mapM finite? = some l := by
  induction l with
  | nil => rfl
  | cons a l ih => rw [List.map_cons, List.mapM_cons, ih]; rfl

theorem readPoints_interface (h : Head) (hh : h.OneLine) (pts : List Point) (hl : 2 ≤ pts.length) :
    readPoints (interfaceFile h pts) = .ok (fileRows pts) := by
  unfold readPoints
  rw [readCoords_interface h hh pts hl]
  have e1 : (pts.map fun p => Value.num (written p.x)) = (pts.map fun p => written p.x).map Value.num := by rw [List.map_map]; rfl
  have e2 : (pts.map fun p => Value.num (written p.y)) = (pts.map fun p => written p.y).map Value.num := by rw [List.map_map]; rfl
  rw [e1, e2]
  simp only [bind, Except.bind, mapM_finite]
  unfold fileRows
  congr 1
  induction pts with
  | nil => rfl
  | cons p pts ih =>
    simp [List.zipWith_map_left, List.zipWith_map_right]

/-! ## Files -/

section Files
variable {γ : Type}

theorem collectFiles_spec (read : γ → Except Err Flow) (write : Text → γ) (head : Text → Head) (c : Centre) (o : Interface.Opts) :
    ∀ (pairs : List (Text × Text)) (maps : List Flow) (m : Memory) (fs : FS γ),
      List.Forall₂ (fun io f => (contentOf fs io.1).bind read = .ok f) pairs maps →
      (pairs.map fun io => splitPath io.2).Nodup → pairs.Pairwise (fun a b => splitPath a.2 ≠ splitPath b.1) →
      (collectFiles read write head c o m fs pairs).2 = (collectInterfaces c o m maps).2 ∧
      List.Forall₂ (fun io rows => ∃ pts, fileRows pts = rows ∧
        (collectFiles read write head c o m fs pairs).1.get? (splitPath io.2) = some (write (interfaceFile (head io.2) pts)))
        (pairs.take (collectInterfaces c o m maps).1.length) (collectInterfaces c o m maps).1 ∧
      ∀ r, fs.get? r ≠ none → (∀ io ∈ pairs, splitPath io.2 ≠ r) → (collectFiles read write head c o m fs pairs).1.get? r = fs.get? r
  | [], _, m, fs, hr, _, _ => by
    cases hr
    refine ⟨rfl, ?_, fun _ _ _ => rfl⟩
    simp [collectInterfaces]
  | (fn, out) :: rest, _, m, fs, .cons hf hr, hout, hcross => by
    rename_i f maps
    rw [List.map_cons, List.nodup_cons] at hout
    rw [List.pairwise_cons] at hcross
    simp only at hf
    cases hi : interfaceCoordinates f "M" m c o with
    | error e =>
      have e1 : collectFiles read write head c o m fs ((fn, out) :: rest) = (fs, .error e) := by
        rw [collectFiles]; simp only [hf, hi]
      have e2 : collectInterfaces c o m (f :: maps) = ([], .error e) := by
        rw [collectInterfaces, hi]
      rw [e1, e2]
      exact ⟨rfl, by simp, fun _ _ _ => rfl⟩
    | ok res =>
      obtain ⟨pts, m'⟩ := res
      obtain ⟨fs1, hp, hfree, hkeep⟩ := preparePath_spec fs (splitPath out)
      have e1 : collectFiles read write head c o m fs ((fn, out) :: rest) =
          collectFiles read write head c o m' (fs1.put (splitPath out) (write (interfaceFile (head out) pts))) rest := by
        rw [collectFiles]; simp only [hf, hi, hp]
      have e2 : collectInterfaces c o m (f :: maps) = (fileRows pts :: (collectInterfaces c o m' maps).1, (collectInterfaces c o m' maps).2) := by
        rw [collectInterfaces, hi]
      have hsame : ∀ r, r ≠ splitPath out → fs.get? r ≠ none →
          (fs1.put (splitPath out) (write (interfaceFile (head out) pts))).get? r = fs.get? r := by
        intro r hr1 hr2
        rw [get?_put, if_neg hr1, hkeep r hr1 hr2]
      have hr' : List.Forall₂ (fun io f => (contentOf (fs1.put (splitPath out) (write (interfaceFile (head out) pts))) io.1).bind read = .ok f) rest maps := by
        clear e1 e2 hf hi
        induction hr with
        | nil => exact .nil
        | cons h1 _ ih =>
          rename_i io g rest' maps' _
          refine .cons ?_ (ih ⟨fun h => hout.1 (by simp [h]), (List.nodup_cons.mp hout.2).2⟩ ⟨fun b hb => hcross.1 b (by simp [hb]), (List.pairwise_cons.mp hcross.2).2⟩)
          have hne : fs.get? (splitPath io.1) ≠ none := by
            intro hn
            simp [contentOf, hn, Except.bind] at h1
          have : contentOf (fs1.put (splitPath out) (write (interfaceFile (head out) pts))) io.1 = contentOf fs io.1 := by
            unfold contentOf
            rw [hsame _ (Ne.symm (hcross.1 io (by simp))) hne]
          rw [this]
          exact h1
      obtain ⟨i1, i2, i3⟩ := collectFiles_spec read write head c o rest maps m' _ hr' hout.2 hcross.2
      rw [e1, e2]
      refine ⟨i1, ?_, ?_⟩
      · simp only [List.length_cons, List.take_succ_cons]
        refine .cons ⟨pts, rfl, ?_⟩ i2
        rw [i3 _ (by simp [get?_put]) (fun io hio h => hout.1 (List.mem_map.mpr ⟨io, hio, h⟩))]
        simp [get?_put]
      · intro r hr1 hr2
        have h1 := hsame r (Ne.symm (hr2 (fn, out) (by simp))) hr1
        rw [i3 r (by rw [h1]; exact hr1) (fun io hio => hr2 io (by simp [hio])), h1]

end Files

/-! ## Real numbers -/

theorem roundReal_near (x : ℝ) : |(roundReal x : ℝ) - x| ≤ 1 / 2 := by
  have hf1 : (⌊x⌋ : ℝ) ≤ x := Int.floor_le x
  have hf2 : x < ⌊x⌋ + 1 := Int.lt_floor_add_one x
  unfold roundReal
  rw [abs_le]
  split_ifs <;> push_cast <;> constructor <;> linarith

theorem roundReal_nonneg {x : ℝ} (h : 0 ≤ x) : 0 ≤ roundReal x := by
  have : 0 ≤ ⌊x⌋ := Int.floor_nonneg.mpr h
  unfold roundReal
  split_ifs <;> omega

/-- A real number is printed like some rational number, which is its rounded value up to the sign of zero. -/
theorem fixedReal_eq (x : ℝ) : ∃ q : ℚ, fixedReal 3 x = fixed 3 q ∧ ∃ n : ℤ, rounded 3 q = (n : ℚ) / 1000 ∧ |(n : ℝ) / 1000 - x| ≤ 1 / 2000 := by
  have h0 : 0 ≤ |x| * 10 ^ 3 := by positivity
  obtain ⟨v, hv⟩ : ∃ v : ℕ, roundReal (|x| * 10 ^ 3) = v := ⟨_, (Int.toNat_of_nonneg (roundReal_nonneg h0)).symm⟩
  have hn := roundReal_near (|x| * 10 ^ 3)
  rw [hv, Int.cast_natCast] at hn
  have hw : abs ((v : ℝ) / 1000 - abs x) ≤ 1 / 2000 := by
    rw [abs_le] at hn ⊢
    constructor <;> linarith [hn.1, hn.2]
  have hr : ∀ w : ℕ, Average.pyRound ((w : ℚ) / 1000 * 10 ^ 3) = w := by
    intro w
    rw [show (w : ℚ) / 1000 * 10 ^ 3 = ((w : ℤ) : ℚ) by push_cast; ring]
    exact Average.pyRound_int _
  unfold fixedReal
  rw [hv, Int.toNat_natCast]
  by_cases hx : x < 0
  · rw [if_pos hx]
    rw [abs_of_neg hx] at hw
    have hfin : |(-(v : ℤ) : ℝ) / 1000 - x| ≤ 1 / 2000 := by
      rw [abs_le] at hw ⊢
      push_cast
      constructor <;> linarith [hw.1, hw.2]
    by_cases hz : v = 0
    · subst hz
      refine ⟨-(1 / 4000), by decide +kernel, 0, by decide +kernel, ?_⟩
      simpa using hfin
    · have hneg : -((v : ℚ) / 1000) < 0 := by
        have : (0 : ℚ) < v := by exact_mod_cast Nat.pos_of_ne_zero hz
        rw [neg_lt_zero]
        positivity
      refine ⟨-((v : ℚ) / 1000), ?_, -v, ?_, ?_⟩
      · unfold fixed
        rw [abs_of_neg hneg, neg_neg, hr, Int.toNat_natCast, if_pos hneg]
      · unfold rounded
        rw [abs_of_neg hneg, neg_neg, hr, if_pos hneg]
        push_cast
        ring
      · rw [Int.cast_neg]
        exact_mod_cast hfin
  · rw [if_neg hx]
    rw [abs_of_nonneg (not_lt.mp hx)] at hw
    have hpos : ¬ (v : ℚ) / 1000 < 0 := not_lt.mpr (by positivity)
    refine ⟨(v : ℚ) / 1000, ?_, v, ?_, ?_⟩
    · unfold fixed
      rw [abs_of_nonneg (not_lt.mp hpos), hr, Int.toNat_natCast, if_neg hpos]
    · unfold rounded
      rw [abs_of_nonneg (not_lt.mp hpos), hr, if_neg hpos, one_mul]
      push_cast
      ring
    · rw [Int.cast_natCast]
      exact hw

theorem word_fixedReal (x : ℝ) : Word (fixedReal 3 x) := by
  obtain ⟨q, h, -⟩ := fixedReal_eq x
  rw [h]
  exact word_fixed 3 q

theorem shown_fixedReal (x : ℝ) : ∃ v, FloatText (fixedReal 3 x) v ∧ Shown (some x) v := by
  obtain ⟨q, h, n, h1, h2⟩ := fixedReal_eq x
  refine ⟨.num (rounded 3 q), ?_, n, by rw [h1], h2⟩
  rw [h]
  exact floatText_fixed (by norm_num) q

theorem word_fixedOption (x : Option ℝ) : Word (fixedOption 3 x) := by
  cases x with
  | some x => exact word_fixedReal x
  | none => exact ⟨by decide, by decide, by decide⟩

theorem shown_fixedOption (x : Option ℝ) : ∃ v, FloatText (fixedOption 3 x) v ∧ Shown x v := by
  cases x with
  | some x => exact shown_fixedReal x
  | none => exact ⟨.nan, (float?_iff _ _).mp (by decide +kernel), rfl⟩

theorem shown_fixed (x : ℚ) : ∃ v, FloatText (fixed 3 x) v ∧ Shown (some (x : ℝ)) v := by
  refine ⟨.num (rounded 3 x), floatText_fixed (by norm_num) x, if x < 0 then -Average.pyRound (|x| * 10 ^ 3) else Average.pyRound (|x| * 10 ^ 3), ?_, ?_⟩
  · unfold rounded
    split_ifs <;> congr 1 <;> push_cast <;> ring
  · have h := rounded_near 3 x
    have e : (((if x < 0 then -Average.pyRound (|x| * 10 ^ 3) else Average.pyRound (|x| * 10 ^ 3) : ℤ) : ℝ) / 1000 - (x : ℝ)) = ((rounded 3 x - x : ℚ) : ℝ) := by
      unfold rounded
      split_ifs <;> push_cast <;> ring
    rw [e, ← Rat.cast_abs]
    calc ((|rounded 3 x - x| : ℚ) : ℝ) ≤ ((1 / 2 / 10 ^ 3 : ℚ) : ℝ) := by exact_mod_cast h
      _ = 1 / 2000 := by norm_num

end Strata.InterfaceText
