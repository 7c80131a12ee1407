import Verif.Proofs.Cli
import Verif.Proofs.Files
import Verif.Model.Files
/-!
# Command line values: C74
-/
namespace Strata.Cli
open Strata Strata.Files Strata.PyText

theorem none_iff (s : Text) : lower s = ['n', 'o', 'n', 'e'] ↔ SameLetters s ['n', 'o', 'n', 'e'] := lower_iff s _ (by decide)

/-- `none` is no number. -/
theorem none_not_float {s : Text} (h : SameLetters s ['n', 'o', 'n', 'e']) : float? s = none := by
  unfold SameLetters at h
  rcases s with _ | ⟨a, _ | ⟨b, _ | ⟨c, _ | ⟨d, _ | ⟨e, s⟩⟩⟩⟩⟩
  · simp at h
  · simp at h
  · simp at h
  · simp at h
  · simp only [List.forall₂_cons, List.forall₂_nil_right_iff, and_true] at h
    obtain ⟨ha, hb, hc, hd⟩ := h
    rcases ha with rfl | rfl <;> rcases hb with rfl | rfl <;> rcases hc with rfl | rfl <;> rcases hd with rfl | rfl <;> decide
  · simp at h

theorem none_not_int {s : Text} (h : SameLetters s ['n', 'o', 'n', 'e']) : int? s = none := by
  unfold SameLetters at h
  rcases s with _ | ⟨a, _ | ⟨b, _ | ⟨c, _ | ⟨d, _ | ⟨e, s⟩⟩⟩⟩⟩
  · simp at h
  · simp at h
  · simp at h
  · simp at h
  · simp only [List.forall₂_cons, List.forall₂_nil_right_iff, and_true] at h
    obtain ⟨ha, hb, hc, hd⟩ := h
    rcases ha with rfl | rfl <;> rcases hb with rfl | rfl <;> rcases hc with rfl | rfl <;> rcases hd with rfl | rfl <;> decide
  · simp at h

/-- **C74, optional integers.** For every text: it gives the integer `n` exactly if it denotes `n` in Python's grammar, no value
exactly if it is the word none in any letter case, and a usage error in all other cases. -/
theorem C74_optional_integer (s : Text) :
    (∀ n, optInt s = .ok (some n) ↔ IntText s n) ∧
    (optInt s = .ok none ↔ SameLetters s ['n', 'o', 'n', 'e']) ∧
    (optInt s = .error .systemExit ↔ (∀ n, ¬ IntText s n) ∧ ¬ SameLetters s ['n', 'o', 'n', 'e']) := by
  have hi := int?_iff s
  unfold optInt
  cases hs : int? s with
  | some m =>
    rw [hs] at hi
    simp only [Option.some.injEq] at hi
    have hnn : ¬ SameLetters s ['n', 'o', 'n', 'e'] := fun h => by rw [none_not_int h] at hs; cases hs
    refine ⟨fun n => by simp [hi], by simp [hnn], ?_⟩
    simp only [reduceCtorEq, false_iff, not_and]
    intro h
    exact absurd ((hi m).mp rfl) (h m)
  | none =>
    rw [hs] at hi
    simp only [reduceCtorEq, false_iff] at hi
    by_cases h : SameLetters s ['n', 'o', 'n', 'e']
    · simp only [if_pos ((none_iff s).mpr h)]
      simp [h, hi]
    · simp only [if_neg (fun e => h ((none_iff s).mp e))]
      simp [h, hi]

/-- **C74, optional floats.** The same for floating point values; note that inf, infinity and nan are accepted as numbers. -/
theorem C74_optional_float (s : Text) :
    (∀ v, optFloat s = .ok (some v) ↔ FloatText s v) ∧
    (optFloat s = .ok none ↔ SameLetters s ['n', 'o', 'n', 'e']) ∧
    (optFloat s = .error .systemExit ↔ (∀ v, ¬ FloatText s v) ∧ ¬ SameLetters s ['n', 'o', 'n', 'e']) := by
  have hi := float?_iff s
  unfold optFloat
  cases hs : float? s with
  | some m =>
    rw [hs] at hi
    simp only [Option.some.injEq] at hi
    have hnn : ¬ SameLetters s ['n', 'o', 'n', 'e'] := fun h => by rw [none_not_float h] at hs; cases hs
    refine ⟨fun n => by simp [hi], by simp [hnn], ?_⟩
    simp only [reduceCtorEq, false_iff, not_and]
    intro h
    exact absurd ((hi m).mp rfl) (h m)
  | none =>
    rw [hs] at hi
    simp only [reduceCtorEq, false_iff] at hi
    by_cases h : SameLetters s ['n', 'o', 'n', 'e']
    · simp only [if_pos ((none_iff s).mpr h)]
      simp [h, hi]
    · simp only [if_neg (fun e => h ((none_iff s).mp e))]
      simp [h, hi]

/-- A text denotes at most one value. -/
theorem C74_unambiguous (s : Text) (m n : ℤ) (v w : Value) : (IntText s m → IntText s n → m = n) ∧ (FloatText s v → FloatText s w → v = w) := by
  constructor
  · intro h1 h2
    rw [← int?_iff] at h1 h2
    rw [h1] at h2
    exact Option.some.inj h2
  · intro h1 h2
    rw [← float?_iff] at h1 h2
    rw [h1] at h2
    exact Option.some.inj h2

theorem mapM_some_iff {α β : Type} (f : α → Option β) : ∀ (l : List α) (bs : List β), l.mapM f = some bs ↔ List.Forall₂ (fun a b => f a = some b) l bs := by
  intro l
  induction l with
  | nil => intro bs; simp [eq_comm]
  | cons a l ih =>
    intro bs
    rw [List.mapM_cons]
    cases ha : f a with
    | none =>
      simp only [Option.bind_eq_bind, Option.bind_none, reduceCtorEq, false_iff]
      intro h
      cases h with
      | cons h _ => rw [ha] at h; cases h
    | some b =>
      cases hl : l.mapM f with
      | none =>
        simp only [Option.bind_eq_bind, Option.bind_none, Option.bind_some, reduceCtorEq, false_iff]
        intro h
        cases h with
        | cons _ h => rw [← ih, hl] at h; cases h
      | some cs =>
        simp only [Option.bind_eq_bind, Option.bind_some]
        constructor
        · intro h
          cases h
          exact .cons ha ((ih cs).mp hl)
        · intro h
          cases h with
          | cons h1 h2 =>
            rw [ha] at h1
            rw [← ih, hl] at h2
            cases h1
            cases h2
            rfl

/-- What the words of a text are. -/
theorem words_iff (s : Text) (ws : List Text) : words s = ws ↔ WordsOf s ws := by
  have hgap : ∀ gap : Text, Blank gap → ∀ rest, wordsAux [] (gap ++ rest) = wordsAux [] rest := by
    intro gap
    induction gap with
    | nil => intro _ rest; rfl
    | cons c gap ih =>
      intro h rest
      rw [List.cons_append, wordsAux, if_pos ((white c).symm.trans (h c (by simp))), if_pos rfl]
      exact ih (fun d hd => h d (by simp [hd])) rest
  have hback : ∀ s ws, WordsOf s ws → words s = ws := by
    intro s ws h
    unfold words
    induction h with
    | none gap hg =>
      have := hgap gap hg []
      rwa [List.append_nil] at this
    | last gap w hg hne hw =>
      rw [hgap gap hg]
      exact words_single w hne fun c h => (white c).symm.trans (hw c h)
    | more gap w c rest ws hg hne hw hc _ ih =>
      rw [List.append_assoc, hgap gap hg, wordsAux_word w (fun c h => (white c).symm.trans (hw c h)), List.append_nil, wordsAux, if_pos ((white c).symm.trans hc), if_neg (by simpa using hne), List.reverse_reverse, ih]
  have hex : ∀ (n : ℕ) (s : Text), s.length ≤ n → ∃ ws, WordsOf s ws := by
    intro n
    induction n with
    | zero => intro s hs; rw [List.length_eq_zero_iff.mp (by omega : s.length = 0)]; exact ⟨[], .none [] (by simp [Blank])⟩
    | succ n ih =>
      intro s hs
      have h1 : s.takeWhile isSpace ++ s.dropWhile isSpace = s := List.takeWhile_append_dropWhile
      have hg : Blank (s.takeWhile isSpace) := (blank_iff _).mpr fun c hc => List.mem_takeWhile_imp hc
      by_cases hd : s.dropWhile isSpace = []
      · rw [hd, List.append_nil] at h1
        rw [← h1]
        exact ⟨[], .none _ hg⟩
      · have h2 : (s.dropWhile isSpace).takeWhile (fun c => !isSpace c) ++ (s.dropWhile isSpace).dropWhile (fun c => !isSpace c) = s.dropWhile isSpace :=
          List.takeWhile_append_dropWhile
        have hw : ∀ c ∈ (s.dropWhile isSpace).takeWhile (fun c => !isSpace c), isSpace c = false := by
          intro c hc
          have := List.mem_takeWhile_imp hc
          simpa using this
        have hne : (s.dropWhile isSpace).takeWhile (fun c => !isSpace c) ≠ [] := by
          obtain ⟨c, t, hct⟩ := List.exists_cons_of_ne_nil hd
          have hc := List.head_dropWhile_not isSpace hd
          simp only [hct, List.head_cons] at hc
          rw [hct, List.takeWhile_cons, hc]
          simp
        generalize (s.dropWhile isSpace).takeWhile (fun c => !isSpace c) = w at h2 hw hne
        cases hr : (s.dropWhile isSpace).dropWhile (fun c => !isSpace c) with
        | nil =>
          rw [hr, List.append_nil] at h2
          rw [← h1, ← h2]
          exact ⟨[w], .last _ _ hg hne fun c h => (white c).trans (hw c h)⟩
        | cons c rest =>
          have hc : isSpace c = true := by
            have := List.head_dropWhile_not (fun c => !isSpace c) (l := s.dropWhile isSpace) (by rw [hr]; simp)
            simp only [hr, List.head_cons] at this
            simpa using this
          rw [hr] at h2
          obtain ⟨ws, hws⟩ := ih rest (by
            have := congrArg List.length h1
            rw [← h2] at this
            simp only [List.length_append, List.length_cons] at this
            omega)
          refine ⟨w :: ws, ?_⟩
          have := WordsOf.more _ w c rest ws hg hne (fun c h => (white c).trans (hw c h)) ((white c).trans hc) hws
          rwa [List.append_assoc, h2, h1] at this
  constructor
  · rintro rfl
    obtain ⟨ws, h⟩ := hex s.length s le_rfl
    rwa [hback s ws h]
  · exact hback s ws

/-- **C74, lists of texts.** A text gives the list of its words: what stands between white space. -/
theorem C74_list_of_texts (s : Text) (ws : List Text) : listStrs s = ws ↔ WordsOf s ws := words_iff s ws

example : listStrs " flow_00001.dat\t x ".toList = ["flow_00001.dat".toList, "x".toList] := by decide +kernel

/-- **C74, lists.** A text of words gives the list of the numbers they denote, in order, or a usage error if some word denotes
none. -/
theorem C74_list_of_floats (s : Text) :
    (∀ vs, listFloats s = .ok vs ↔ List.Forall₂ FloatText (words s) vs) ∧
    (listFloats s = .error .systemExit ↔ ∃ w ∈ words s, ∀ v, ¬ FloatText w v) := by
  have key : ∀ vs, (words s).mapM float? = some vs ↔ List.Forall₂ FloatText (words s) vs := by
    intro vs
    rw [mapM_some_iff]
    simp only [float?_iff]
  have hnone : (words s).mapM float? = none ↔ ∃ w ∈ words s, ∀ v, ¬ FloatText w v := by
    generalize words s = l
    induction l with
    | nil => simp
    | cons a l ih =>
      rw [List.mapM_cons]
      cases ha : float? a with
      | none =>
        simp only [Option.bind_eq_bind, Option.bind_none, true_iff]
        exact ⟨a, by simp, fun v hv => by rw [← float?_iff, ha] at hv; cases hv⟩
      | some b =>
        have hb : ¬ ∀ v, ¬ FloatText a v := fun h => h b ((float?_iff a b).mp ha)
        cases hl : l.mapM float? with
        | none =>
          simp only [Option.bind_eq_bind, Option.bind_some, Option.bind_none, true_iff]
          obtain ⟨w, hw, h⟩ := ih.mp hl
          exact ⟨w, by simp [hw], h⟩
        | some cs =>
          rw [hl] at ih
          simp only [reduceCtorEq, false_iff] at ih
          simp only [Option.bind_eq_bind, Option.bind_some, Option.pure_def, reduceCtorEq, false_iff]
          rintro ⟨w, hw, h⟩
          rcases List.mem_cons.mp hw with rfl | hw
          · exact hb h
          · exact ih ⟨w, hw, h⟩
  unfold listFloats
  cases hm : (words s).mapM float? with
  | some ws =>
    rw [hm] at key hnone
    refine ⟨fun vs => ?_, ?_⟩
    · rw [← key]; simp
    · rw [← hnone]; simp
  | none =>
    rw [hm] at key hnone
    refine ⟨fun vs => ?_, ?_⟩
    · rw [← key]; simp
    · rw [← hnone]; simp

/-- Whether a file number is at most the bound. -/
def Bound.admits : Bound → ℤ → Prop
  | .num e, n => n ≤ e
  | .inf, _ => True

/-- **C74, absent end.** An option without value becomes the bound that admits every number; a given value, and every other
option, stays what it is; and the option has to exist. -/
theorem C74_absent_end (kw : Kwargs) (label : String) :
    (label ∉ kw.map Prod.fst → setNoneToInf kw label = .error .keyError) ∧
    (label ∈ kw.map Prod.fst → ∃ kw', setNoneToInf kw label = .ok kw' ∧ kw'.map Prod.fst = kw.map Prod.fst ∧
      (∀ l, l ≠ label → kw'.lookup l = kw.lookup l) ∧
      (kw.lookup label = some none → kw'.lookup label = some (some .inf)) ∧
      (∀ b, kw.lookup label = some (some b) → kw'.lookup label = some (some b))) := by
  constructor
  · intro h
    have : kw.lookup label = none := by
      rw [List.lookup_eq_none_iff]
      intro p hp
      simp only [beq_eq_false_iff_ne, ne_eq, bne_iff_ne]
      intro e
      exact h (List.mem_map.mpr ⟨p, hp, e.symm⟩)
    unfold setNoneToInf
    rw [this]
  · intro h
    have key : ∀ l, (kw.map fun p : String × Option Bound => if p.1 = label then (p.1, some Bound.inf) else p).lookup l =
        if l = label then (kw.lookup l).map fun _ => some Bound.inf else kw.lookup l := by
      intro l
      induction kw with
      | nil => simp
      | cons p kw ih =>
        obtain ⟨k, v⟩ := p
        by_cases hin : label ∈ kw.map Prod.fst
        · have ih := ih hin
          by_cases hk : k = label
          · subst hk
            by_cases hl : l = k
            · subst hl; simp [List.lookup_cons]
            · simp only [List.map_cons, if_true, List.lookup_cons, beq_false_of_ne hl, ih]
          · by_cases hl : l = k
            · subst hl; simp [List.lookup_cons, hk]
            · simp only [List.map_cons, if_neg hk, List.lookup_cons, beq_false_of_ne hl, ih]
        · have hk : k = label := by
            rw [List.map_cons, List.mem_cons] at h
            rcases h with h | h
            · exact h.symm
            · exact absurd h hin
          subst hk
          have hid : (kw.map fun p : String × Option Bound => if p.1 = k then (p.1, some Bound.inf) else p) = kw := by
            conv_rhs => rw [← List.map_id kw]
            refine List.map_congr_left fun p hp => ?_
            rw [if_neg]
            · rfl
            · intro e
              exact hin (List.mem_map.mpr ⟨p, hp, e⟩)
          by_cases hl : l = k
          · subst hl; simp [List.lookup_cons]
          · simp only [List.map_cons, if_true, List.lookup_cons, beq_false_of_ne hl, hid, if_neg hl]
    have hsome : ∃ v, kw.lookup label = some v := by
      cases hv : kw.lookup label with
      | some v => exact ⟨v, rfl⟩
      | none =>
        rw [List.lookup_eq_none_iff] at hv
        obtain ⟨p, hp, e⟩ := List.mem_map.mp h
        have := hv p hp
        simp [e] at this
    obtain ⟨v, hv⟩ := hsome
    unfold setNoneToInf
    rw [hv]
    cases v with
    | none =>
      refine ⟨_, rfl, ?_, ?_, ?_, ?_⟩
      · rw [List.map_map]
        refine List.map_congr_left fun p _ => ?_
        simp only [Function.comp]
        split <;> rfl
      · intro l hl
        rw [key, if_neg hl]
      · intro _
        rw [key, if_pos rfl, hv]
        rfl
      · intro b hb; cases hb
    | some b =>
      refine ⟨kw, rfl, rfl, fun _ _ => rfl, ?_, ?_⟩
      · intro h; cases h
      · intro b' h; rw [hv]; exact h

/-! ### Examples -/

example : optInt "NoNe".toList = .ok none ∧ optInt " +1_000 ".toList = .ok (some 1000) ∧ optInt "-0".toList = .ok (some 0) ∧
    optInt "1.5".toList = .error .systemExit ∧ optInt " none".toList = .error .systemExit ∧ optInt "1__0".toList = .error .systemExit := by
  refine ⟨?_, ?_, ?_, ?_, ?_, ?_⟩ <;> decide +kernel

example : optFloat "none".toList = .ok none ∧ optFloat "-1.25e-1".toList = .ok (some (.num (-1 / 8))) ∧ optFloat "5.".toList = .ok (some (.num 5)) ∧
    optFloat "-INF".toList = .ok (some (.inf true)) ∧ optFloat "nan".toList = .ok (some .nan) ∧ optFloat ".".toList = .error .systemExit ∧
    optFloat "1e".toList = .error .systemExit := by
  refine ⟨?_, ?_, ?_, ?_, ?_, ?_, ?_⟩ <;> decide +kernel

example : IntText "-12".toList (-12) := ⟨[], ['-'], ['1', '2'], [], -1, [1, 2], rfl, by simp [Blank], by simp [Blank], .minus,
  .more 1 ['2'] [2] (by norm_num) (.one 2 (by norm_num)), by decide⟩

/-- **C74, lists of numbers, in terms of the text.** -/
theorem C74_list_of_numbers (s : Text) :
    (∀ vs, listFloats s = .ok vs ↔ ∃ ws, WordsOf s ws ∧ List.Forall₂ FloatText ws vs) ∧
    (listFloats s = .error .systemExit ↔ ∃ ws, WordsOf s ws ∧ ∃ w ∈ ws, ∀ v, ¬ FloatText w v) := by
  obtain ⟨h1, h2⟩ := C74_list_of_floats s
  have key : ∀ P : List Text → Prop, P (words s) ↔ ∃ ws, WordsOf s ws ∧ P ws := by
    intro P
    constructor
    · intro h; exact ⟨_, (words_iff s _).mp rfl, h⟩
    · rintro ⟨ws, hw, h⟩
      rwa [(words_iff s ws).mpr hw]
  refine ⟨fun vs => ?_, ?_⟩
  · rw [h1, key fun ws => List.Forall₂ FloatText ws vs]
  · rw [h2, key fun ws => ∃ w ∈ ws, ∀ v, ¬ FloatText w v]

example : listFloats "0.5 1 2e1".toList = .ok [.num (1 / 2), .num 1, .num 20] ∧ listFloats "1 x".toList = .error .systemExit := by
  refine ⟨?_, ?_⟩ <;> decide +kernel

example : setNoneToInf [("begin", some (.num 1)), ("end", none)] = .ok [("begin", some (.num 1)), ("end", some .inf)] := by decide

end Strata.Cli
