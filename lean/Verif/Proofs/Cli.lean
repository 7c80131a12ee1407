import Verif.Spec.Cli
import Verif.Proofs.PyText
import Mathlib.Data.List.TakeWhile
/-! # Lemmas about literals -/
namespace Strata.Cli
open Strata Strata.Files Strata.PyText

theorem digitChar_facts : ∀ d : ℕ, d < 10 → (Nat.digitChar d).isDigit = true ∧ (Nat.digitChar d).toNat - 48 = d ∧ isSpace (Nat.digitChar d) = false ∧
    isE (Nat.digitChar d) = false ∧ Nat.digitChar d ≠ '.' ∧ Nat.digitChar d ≠ '-' ∧ Nat.digitChar d ≠ '+' := by decide

theorem digitChar_of_isDigit {c : Char} (h : c.isDigit = true) : c.toNat - 48 < 10 ∧ Nat.digitChar (c.toNat - 48) = c := by
  obtain ⟨h1, h2⟩ := digit_range h
  refine ⟨by omega, ?_⟩
  have hk : ∀ k : ℕ, k < 10 → ∀ c : Char, c.toNat = 48 + k → Nat.digitChar k = c := by
    intro k hk c hc
    have hc' : c = Char.ofNat (48 + k) := by rw [← hc, Char.ofNat_toNat]
    subst hc'
    have : ∀ k : ℕ, k < 10 → Nat.digitChar k = Char.ofNat (48 + k) := by decide
    exact this k hk
  exact hk _ (by omega) c (by omega)

theorem digitParts_iff (s : Text) : ∀ ds,
    (digitParts false s = some ds ↔ Digits s ds) ∧
    (digitParts true s = some ds ↔ (s = [] ∧ ds = []) ∨ Digits s ds ∨ ∃ t, s = '_' :: t ∧ Digits t ds) := by
  induction s with
  | nil =>
    intro ds
    constructor
    · constructor
      · intro h; simp [digitParts] at h
      · intro h; cases h
    · constructor
      · intro h; left; simp [digitParts] at h; exact ⟨rfl, h.symm ▸ rfl⟩
      · rintro (⟨-, rfl⟩ | h | ⟨t, h, -⟩)
        · rfl
        · cases h
        · cases h
  | cons c s ih =>
    intro ds
    by_cases hd : c.isDigit = true
    · obtain ⟨hlt, hc⟩ := digitChar_of_isDigit hd
      have e : ∀ p, digitParts p (c :: s) = (digitParts true s).map fun ds => (c.toNat - 48) :: ds := fun p => by
        rw [digitParts, if_pos hd]
      have key : (digitParts true s).map (fun ds => (c.toNat - 48) :: ds) = some ds ↔ Digits (c :: s) ds := by
        rw [Option.map_eq_some_iff]
        constructor
        · rintro ⟨es, he, rfl⟩
          rcases ((ih es).2.mp he) with ⟨rfl, rfl⟩ | h | ⟨t, rfl, h⟩
          · have := Digits.one (c.toNat - 48) hlt
            rwa [hc] at this
          · have := Digits.more (c.toNat - 48) s es hlt h
            rwa [hc] at this
          · have := Digits.underscore (c.toNat - 48) t es hlt h
            rwa [hc] at this
        · intro h
          cases h with
          | one d hd' => exact ⟨[], (ih []).2.mpr (Or.inl ⟨rfl, rfl⟩), by rw [(digitChar_facts d hd').2.1]⟩
          | more d s es hd' h => exact ⟨es, (ih es).2.mpr (Or.inr (Or.inl h)), by rw [(digitChar_facts d hd').2.1]⟩
          | underscore d t es hd' h => exact ⟨es, (ih es).2.mpr (Or.inr (Or.inr ⟨t, rfl, h⟩)), by rw [(digitChar_facts d hd').2.1]⟩
      refine ⟨by rw [e]; exact key, ?_⟩
      rw [e, key]
      constructor
      · exact fun h => Or.inr (Or.inl h)
      · rintro (⟨h, -⟩ | h | ⟨t, h, -⟩)
        · cases h
        · exact h
        · cases h; simp at hd
    · have hnd : ∀ ds, ¬ Digits (c :: s) ds := by
        intro ds h
        apply hd
        cases h with
        | one d h => exact (digitChar_facts d h).1
        | more d _ _ h _ => exact (digitChar_facts d h).1
        | underscore d _ _ h _ => exact (digitChar_facts d h).1
      constructor
      · rw [digitParts, if_neg hd, if_neg (by simp)]
        constructor
        · intro h; cases h
        · intro h; exact absurd h (hnd ds)
      · rw [digitParts, if_neg hd]
        by_cases hu : c = '_'
        · subst hu
          rw [if_pos ⟨rfl, rfl⟩, (ih ds).1]
          constructor
          · intro h; exact Or.inr (Or.inr ⟨s, rfl, h⟩)
          · rintro (⟨h, -⟩ | h | ⟨t, h, ht⟩)
            · cases h
            · exact absurd h (hnd ds)
            · cases h; exact ht
        · rw [if_neg (by rintro ⟨h, -⟩; exact hu h)]
          constructor
          · intro h; cases h
          · rintro (⟨h, -⟩ | h | ⟨t, h, ht⟩)
            · cases h
            · exact absurd h (hnd ds)
            · cases h; exact absurd rfl hu

theorem Digits.ne_nil {s : Text} {ds : List ℕ} (h : Digits s ds) : s ≠ [] ∧ ds ≠ [] := by
  cases h <;> simp

theorem Digits.chars {s : Text} {ds : List ℕ} (h : Digits s ds) : ∀ c ∈ s, c.isDigit = true ∨ c = '_' := by
  induction h with
  | one d hd => intro c hc; simp at hc; subst hc; exact Or.inl (digitChar_facts d hd).1
  | more d s ds hd _ ih =>
    intro c hc
    rcases List.mem_cons.mp hc with rfl | hc
    · exact Or.inl (digitChar_facts d hd).1
    · exact ih c hc
  | underscore d s ds hd _ ih =>
    intro c hc
    rcases List.mem_cons.mp hc with rfl | hc
    · exact Or.inl (digitChar_facts d hd).1
    · rcases List.mem_cons.mp hc with rfl | hc
      · exact Or.inr rfl
      · exact ih c hc

theorem char_facts {c : Char} (h : c.isDigit = true ∨ c = '_') : isSpace c = false ∧ isE c = false ∧ c ≠ '.' := by
  rcases h with h | rfl
  · obtain ⟨h1, h2⟩ := digitChar_of_isDigit h
    rw [← h2]
    exact ⟨(digitChar_facts _ h1).2.2.1, (digitChar_facts _ h1).2.2.2.1, (digitChar_facts _ h1).2.2.2.2.1⟩
  · decide

theorem Digits.head {s : Text} {ds : List ℕ} (h : Digits s ds) : ∀ c ∈ s.head?, c.isDigit = true := by
  cases h with
  | one d h => intro c hc; simp at hc; subst hc; exact (digitChar_facts d h).1
  | more d _ _ h _ => intro c hc; simp at hc; subst hc; exact (digitChar_facts d h).1
  | underscore d _ _ h _ => intro c hc; simp at hc; subst hc; exact (digitChar_facts d h).1

theorem ofDigits_number (ds : List ℕ) : ofDigits ds = number ds := by
  have key : ∀ (ds : List ℕ) (a : ℕ), ds.foldl (fun a d => 10 * a + d) a = a * 10 ^ ds.length + Nat.ofDigits 10 ds.reverse := by
    intro ds
    induction ds with
    | nil => intro a; simp
    | cons d ds ih =>
      intro a
      rw [List.foldl_cons, ih, List.reverse_cons, Nat.ofDigits_append, List.length_reverse, List.length_cons]
      simp
      ring
  unfold ofDigits number
  rw [key]
  simp

/-! ### White space -/

theorem isWhite_eq : isWhite = isSpace := by
  funext c
  have key : ∀ d : Char, c = d ↔ c.toNat = d.toNat := fun d => ⟨fun h => by rw [h], fun h => Char.toNat_inj.mp h⟩
  unfold isWhite isSpace
  rw [Bool.eq_iff_iff]
  simp only [decide_eq_true_eq, List.mem_cons, List.not_mem_nil, or_false, key, Bool.or_eq_true, Bool.and_eq_true]
  simp only [show ' '.toNat = 32 from rfl, show '\t'.toNat = 9 from rfl, show '\n'.toNat = 10 from rfl, show '\x0b'.toNat = 11 from rfl, show '\x0c'.toNat = 12 from rfl,
    show '\r'.toNat = 13 from rfl, show '\x1c'.toNat = 28 from rfl, show '\x1d'.toNat = 29 from rfl, show '\x1e'.toNat = 30 from rfl, show '\x1f'.toNat = 31 from rfl]
  omega

theorem white (c : Char) : isWhite c = isSpace c := congrFun isWhite_eq c

theorem blank_iff (s : Text) : Blank s ↔ ∀ c ∈ s, isSpace c = true := by
  unfold Blank
  rw [isWhite_eq]

theorem blank_dropWhile (s : Text) : ∃ a, Blank a ∧ s = a ++ s.dropWhile isSpace :=
  ⟨s.takeWhile isSpace, (blank_iff _).mpr fun _ hc => List.mem_takeWhile_imp hc, (List.takeWhile_append_dropWhile).symm⟩

theorem strip_decomp (s : Text) : ∃ a b, Blank a ∧ Blank b ∧ s = a ++ strip s ++ b := by
  obtain ⟨a, ha, e1⟩ := blank_dropWhile s
  obtain ⟨b, hb, e2⟩ := blank_dropWhile (s.dropWhile isSpace).reverse
  refine ⟨a, b.reverse, ha, fun c hc => hb c (List.mem_reverse.mp hc), ?_⟩
  unfold strip
  have e3 := congrArg List.reverse e2
  rw [List.reverse_reverse, List.reverse_append] at e3
  rw [List.append_assoc, ← e3]
  exact e1

theorem dropWhile_blank (a s : Text) (ha : Blank a) (hs : ∀ c ∈ s.head?, isSpace c = false) : (a ++ s).dropWhile isSpace = s := by
  induction a with
  | nil =>
    cases s with
    | nil => rfl
    | cons c s =>
      have := hs c rfl
      simp [this]
  | cons c a ih =>
    have := ha c (by simp)
    rw [white] at this
    rw [List.cons_append, List.dropWhile_cons, if_pos this]
    exact ih fun c hc => ha c (by simp [hc])

theorem strip_eq (a core b : Text) (ha : Blank a) (hb : Blank b) (hc : ∀ c ∈ core, isSpace c = false) (hne : core ≠ []) : strip (a ++ core ++ b) = core := by
  unfold strip
  rw [List.append_assoc, dropWhile_blank a (core ++ b) ha, List.reverse_append, dropWhile_blank, List.reverse_reverse]
  · exact fun c h => hb c (List.mem_reverse.mp h)
  · intro c h
    rw [List.head?_reverse] at h
    exact hc c (List.mem_of_mem_getLast? h)
  · intro c h
    cases core with
    | nil => exact absurd rfl hne
    | cons d core =>
      simp at h
      subst h
      exact hc _ (by simp)

/-! ### Signs -/

theorem signOf_spec (s : Text) : ∃ sg, Sign sg (signOf s).1 ∧ s = sg ++ (signOf s).2 := by
  unfold signOf
  split
  · exact ⟨['-'], .minus, rfl⟩
  · exact ⟨['+'], .plus, rfl⟩
  · exact ⟨[], .none, rfl⟩

theorem signOf_eq {sg body : Text} {k : ℤ} (h : Sign sg k) (hb : ∀ c ∈ body.head?, c ≠ '-' ∧ c ≠ '+') : signOf (sg ++ body) = (k, body) := by
  cases h with
  | none =>
    show signOf body = (1, body)
    unfold signOf
    split
    · exact absurd rfl (hb '-' rfl).1
    · exact absurd rfl (hb '+' rfl).2
    · rfl
  | plus => rfl
  | minus => rfl

theorem sign_nospace {sg : Text} {k : ℤ} (h : Sign sg k) : ∀ c ∈ sg, isSpace c = false := by
  cases h <;> simp <;> decide

theorem int?_iff (s : Text) (n : ℤ) : int? s = some n ↔ IntText s n := by
  unfold int?
  simp only
  constructor
  · intro h
    rw [Option.map_eq_some_iff] at h
    obtain ⟨ds, hds, rfl⟩ := h
    obtain ⟨a, b, ha, hb, e⟩ := strip_decomp s
    obtain ⟨sg, hsg, e2⟩ := signOf_spec (strip s)
    refine ⟨a, sg, (signOf (strip s)).2, b, (signOf (strip s)).1, ds, ?_, ha, hb, hsg, ((digitParts_iff _ ds).1.mp hds), by rw [ofDigits_number]⟩
    rw [List.append_assoc a, ← e2]
    exact e
  · rintro ⟨a, sg, body, b, k, ds, rfl, ha, hb, hsg, hd, rfl⟩
    have hns : ∀ c ∈ sg ++ body, isSpace c = false := by
      intro c hc
      rcases List.mem_append.mp hc with h | h
      · exact sign_nospace hsg c h
      · exact (char_facts (hd.chars c h)).1
    have hhead : ∀ c ∈ body.head?, c ≠ '-' ∧ c ≠ '+' := by
      intro c hc
      obtain ⟨h1, h2⟩ := digitChar_of_isDigit (hd.head c hc)
      rw [← h2]
      exact ⟨(digitChar_facts _ h1).2.2.2.2.2.1, (digitChar_facts _ h1).2.2.2.2.2.2⟩
    rw [List.append_assoc a, strip_eq a (sg ++ body) b ha hb hns (by intro h; exact hd.ne_nil.1 (List.append_eq_nil_iff.mp h).2), signOf_eq hsg hhead]
    simp only
    rw [(digitParts_iff body ds).1.mpr hd, Option.map_some, ofDigits_number]

/-! ### Letters -/

theorem toLower_eq_iff {c d : Char} (hd : 97 ≤ d.toNat ∧ d.toNat ≤ 122) : c.toLower = d ↔ c = d ∨ c = d.toUpper := by
  have hU : d.toUpper.toNat = d.toNat - 32 := by
    have : ∀ k : ℕ, k < 26 → (Char.ofNat (97 + k)).toUpper.toNat = 97 + k - 32 := by decide
    have e : d = Char.ofNat (97 + (d.toNat - 97)) := by
      rw [show 97 + (d.toNat - 97) = d.toNat by omega, Char.ofNat_toNat]
    have h := this (d.toNat - 97) (by omega)
    rw [← e] at h
    omega
  have hL : ∀ c : Char, (65 ≤ c.toNat ∧ c.toNat ≤ 90) → c.toLower.toNat = c.toNat + 32 := by
    intro c hc
    have : ∀ k : ℕ, k < 26 → (Char.ofNat (65 + k)).toLower.toNat = 65 + k + 32 := by decide
    have e : c = Char.ofNat (65 + (c.toNat - 65)) := by
      rw [show 65 + (c.toNat - 65) = c.toNat by omega, Char.ofNat_toNat]
    have h := this (c.toNat - 65) (by omega)
    rw [← e] at h
    omega
  have hL' : ∀ c : Char, ¬ (65 ≤ c.toNat ∧ c.toNat ≤ 90) → c.toLower = c := by
    intro c hc
    unfold Char.toLower
    rw [dif_neg]
    rintro ⟨h1, h2⟩
    apply hc
    exact ⟨UInt32.le_iff_toNat_le.mp h1, UInt32.le_iff_toNat_le.mp h2⟩
  have inj : ∀ a b : Char, a.toNat = b.toNat → a = b := fun a b h => by
    rw [← Char.ofNat_toNat a, ← Char.ofNat_toNat b, h]
  by_cases hc : 65 ≤ c.toNat ∧ c.toNat ≤ 90
  · constructor
    · intro h
      right
      apply inj
      have := hL c hc
      rw [h] at this
      omega
    · rintro (rfl | h)
      · omega
      · apply inj
        rw [hL c hc, h, hU]
        omega
  · rw [hL' c hc]
    constructor
    · exact Or.inl
    · rintro (h | h)
      · exact h
      · exfalso
        apply hc
        rw [h, hU]
        omega

theorem lower_iff (s t : Text) (ht : ∀ d ∈ t, 97 ≤ d.toNat ∧ d.toNat ≤ 122) : lower s = t ↔ SameLetters s t := by
  unfold lower SameLetters
  induction t generalizing s with
  | nil => cases s <;> simp
  | cons d t ih =>
    cases s with
    | nil => simp
    | cons c s =>
      rw [List.map_cons, List.cons.injEq, List.forall₂_cons, toLower_eq_iff (ht d (by simp)), ih s fun d hd => ht d (by simp [hd])]

/-! ### Decimal literals -/

theorem takeWhile_append_stop {α : Type} (p : α → Bool) (a : List α) (x : α) (b : List α) (ha : ∀ c ∈ a, p c = true) (hx : p x = false) :
    (a ++ x :: b).takeWhile p = a ∧ (a ++ x :: b).dropWhile p = x :: b := by
  induction a with
  | nil => simp [hx]
  | cons c a ih =>
    have hc := ha c (by simp)
    have := ih fun c hc => ha c (by simp [hc])
    simp [hc, this.1, this.2]

theorem takeWhile_all {α : Type} (p : α → Bool) (a : List α) (ha : ∀ c ∈ a, p c = true) : a.takeWhile p = a ∧ a.dropWhile p = [] := by
  induction a with
  | nil => simp
  | cons c a ih =>
    have hc := ha c (by simp)
    have := ih fun c hc => ha c (by simp [hc])
    simp [hc, this.1, this.2]

theorem optDigits_iff (s : Text) (ds : List ℕ) : optDigits s = some ds ↔ OptDigits s ds := by
  unfold optDigits OptDigits
  by_cases h : s = []
  · rw [if_pos h]
    constructor
    · intro e; left; exact ⟨h, by cases e; rfl⟩
    · rintro (⟨-, rfl⟩ | hd)
      · rfl
      · exact absurd h hd.ne_nil.1
  · rw [if_neg h, (digitParts_iff s ds).1]
    constructor
    · exact Or.inr
    · rintro (⟨h', -⟩ | hd)
      · exact absurd h' h
      · exact hd

theorem OptDigits.chars {s : Text} {ds : List ℕ} (h : OptDigits s ds) : ∀ c ∈ s, c.isDigit = true ∨ c = '_' := by
  rcases h with ⟨rfl, -⟩ | h
  · simp
  · exact h.chars

theorem split_dot (s : Text) : ('.' ∉ s ∧ s.takeWhile (· ≠ '.') = s ∧ (s.dropWhile (· ≠ '.')).drop 1 = [] ) ∨
    ∃ a b, s = a ++ '.' :: b ∧ s.takeWhile (· ≠ '.') = a ∧ (s.dropWhile (· ≠ '.')).drop 1 = b := by
  induction s with
  | nil => left; simp
  | cons c s ih =>
    by_cases hc : c = '.'
    · right
      subst hc
      exact ⟨[], s, rfl, by simp, by simp⟩
    · rcases ih with ⟨h1, h2, h3⟩ | ⟨a, b, h1, h2, h3⟩
      · left
        refine ⟨?_, ?_, ?_⟩
        · simp [h1, Ne.symm hc]
        · rw [List.takeWhile_cons, if_pos (by simpa using hc), h2]
        · rw [List.dropWhile_cons, if_pos (by simpa using hc), h3]
      · right
        refine ⟨c :: a, b, by rw [h1]; rfl, ?_, ?_⟩
        · rw [List.takeWhile_cons, if_pos (by simpa using hc), h2]
        · rw [List.dropWhile_cons, if_pos (by simpa using hc), h3]

theorem mantissa_some {s : Text} {a b : List ℕ} (h : mantissa s = some (a, b)) : Mantissa s (a ++ b) b.length := by
  unfold mantissa at h
  split at h
  · rename_i x y h1 h2
    split_ifs at h with hne
    cases h
    rcases split_dot s with ⟨-, e1, e2⟩ | ⟨p, q, e0, e1, e2⟩
    · rw [e1] at h1
      rw [e2] at h2
      have hb : b = [] := by
        have : optDigits [] = some ([] : List ℕ) := rfl
        rw [this] at h2
        cases h2
        rfl
      subst hb
      left
      rw [optDigits_iff] at h1
      rcases h1 with ⟨-, rfl⟩ | h1
      · simp at hne
      · simpa using h1
    · right
      rw [e1, optDigits_iff] at h1
      rw [e2, optDigits_iff] at h2
      exact ⟨p, q, a, b, e0, h1, h2, rfl, hne, rfl⟩
  · cases h

theorem mantissa_of {s : Text} {ds : List ℕ} {k : ℕ} (h : Mantissa s ds k) : ∃ a b, mantissa s = some (a, b) ∧ ds = a ++ b ∧ k = b.length := by
  rcases h with ⟨h, rfl⟩ | ⟨a, b, da, db, rfl, ha, hb, rfl, hne, rfl⟩
  · refine ⟨ds, [], ?_, by simp, rfl⟩
    obtain ⟨e1, e2⟩ := takeWhile_all (fun c : Char => decide (c ≠ '.')) s (fun c hc => by simpa using (char_facts (h.chars c hc)).2.2)
    unfold mantissa
    rw [e1, e2, (optDigits_iff s ds).mpr (Or.inr h)]
    simp [optDigits, h.ne_nil.2]
  · refine ⟨da, db, ?_, rfl, rfl⟩
    obtain ⟨e1, e2⟩ := takeWhile_append_stop (fun c : Char => decide (c ≠ '.')) a '.' b (fun c hc => by simpa using (char_facts (ha.chars c hc)).2.2) (by simp)
    unfold mantissa
    rw [e1, e2, List.drop_one, List.tail_cons, (optDigits_iff a da).mpr ha, (optDigits_iff b db).mpr hb]
    simp only [if_neg hne]

theorem Mantissa.chars {s : Text} {ds : List ℕ} {k : ℕ} (h : Mantissa s ds k) : s ≠ [] ∧ ∀ c ∈ s, (c.isDigit = true ∨ c = '_') ∨ c = '.' := by
  rcases h with ⟨h, -⟩ | ⟨a, b, da, db, rfl, ha, hb, -, -, -⟩
  · exact ⟨h.ne_nil.1, fun c hc => Or.inl (h.chars c hc)⟩
  · refine ⟨by simp, fun c hc => ?_⟩
    rcases List.mem_append.mp hc with h | h
    · exact Or.inl (ha.chars c h)
    · rcases List.mem_cons.mp h with h | h
      · exact Or.inr h
      · exact Or.inl (hb.chars c h)

theorem digits_noSign {s : Text} {ds : List ℕ} (h : Digits s ds) : ∀ c ∈ s.head?, c ≠ '-' ∧ c ≠ '+' := by
  intro c hc
  obtain ⟨h1, h2⟩ := digitChar_of_isDigit (h.head c hc)
  rw [← h2]
  exact ⟨(digitChar_facts _ h1).2.2.2.2.2.1, (digitChar_facts _ h1).2.2.2.2.2.2⟩

theorem exponent_iff (s : Text) (e : ℤ) (hs : ∀ c ∈ s.head?, isE c = true) : exponent s = some e ↔ Exponent s e := by
  cases s with
  | nil =>
    simp only [exponent]
    constructor
    · intro h; cases h; exact Or.inl ⟨rfl, rfl⟩
    · rintro (⟨-, rfl⟩ | ⟨c, sg, body, k, ds, -, h, -⟩)
      · rfl
      · cases h
  | cons c s =>
    have hc : c = 'e' ∨ c = 'E' := by
      have := hs c rfl
      simpa [isE] using this
    simp only [exponent]
    rw [Option.map_eq_some_iff]
    constructor
    · rintro ⟨ds, hds, rfl⟩
      obtain ⟨sg, hsg, e2⟩ := signOf_spec s
      right
      exact ⟨c, sg, (signOf s).2, (signOf s).1, ds, hc, by rw [← e2], hsg, (digitParts_iff _ ds).1.mp hds, by rw [ofDigits_number]⟩
    · rintro (⟨h, -⟩ | ⟨c', sg, body, k, ds, -, h, hsg, hd, rfl⟩)
      · cases h
      · cases h
        rw [signOf_eq hsg (digits_noSign hd)]
        exact ⟨ds, (digitParts_iff _ ds).1.mpr hd, by rw [ofDigits_number]⟩

theorem Exponent.head {s : Text} {e : ℤ} (h : Exponent s e) : ∀ c ∈ s.head?, isE c = true := by
  rcases h with ⟨rfl, -⟩ | ⟨c, sg, body, k, ds, hc, rfl, -⟩
  · simp
  · intro d hd
    simp at hd
    subst hd
    rcases hc with rfl | rfl <;> rfl

theorem Exponent.nospace {s : Text} {e : ℤ} (h : Exponent s e) : ∀ c ∈ s, isSpace c = false := by
  rcases h with ⟨rfl, -⟩ | ⟨c, sg, body, k, ds, hc, rfl, hsg, hd, -⟩
  · simp
  · intro d hd'
    rcases List.mem_cons.mp hd' with rfl | h
    · rcases hc with rfl | rfl <;> rfl
    · rcases List.mem_append.mp h with h | h
      · exact sign_nospace hsg d h
      · exact (char_facts (hd.chars d h)).1

/-! ### Words -/

theorem sameLetters_chars {s t : Text} (h : SameLetters s t) : ∀ c ∈ s, ∃ d ∈ t, c = d ∨ c = d.toUpper := by
  unfold SameLetters at h
  induction h with
  | nil => simp
  | cons h _ ih =>
    rename_i c d s t _
    intro x hx
    rcases List.mem_cons.mp hx with rfl | hx
    · exact ⟨d, by simp, h⟩
    · obtain ⟨y, hy, e⟩ := ih x hx
      exact ⟨y, by simp [hy], e⟩

/-- A literal made of letters is no decimal one. -/
theorem letters_not_mantissa {s t m x : Text} {ds : List ℕ} {k : ℕ} (h : SameLetters s t)
    (ht : ∀ d ∈ t, d.isDigit = false ∧ d ≠ '_' ∧ d ≠ '.' ∧ d.toUpper.isDigit = false ∧ d.toUpper ≠ '_' ∧ d.toUpper ≠ '.') (hm : Mantissa m ds k) : s ≠ m ++ x := by
  rintro rfl
  obtain ⟨hne, hch⟩ := hm.chars
  cases m with
  | nil => exact hne rfl
  | cons c m =>
    obtain ⟨d, hd, e⟩ := sameLetters_chars h c (by simp)
    obtain ⟨t1, t2, t3, t4, t5, t6⟩ := ht d hd
    rcases e with rfl | rfl
    · rcases hch c (by simp) with (h | h) | h
      · rw [t1] at h; cases h
      · exact t2 h
      · exact t3 h
    · rcases hch d.toUpper (by simp) with (h | h) | h
      · rw [t4] at h; cases h
      · exact t5 h
      · exact t6 h

theorem unsigned_iff (s : Text) (v : Value) : unsigned s = some v ↔ Literal s v := by
  have l1 := lower_iff s ['i', 'n', 'f'] (by decide)
  have l2 := lower_iff s ['i', 'n', 'f', 'i', 'n', 'i', 't', 'y'] (by decide)
  have l3 := lower_iff s ['n', 'a', 'n'] (by decide)
  unfold unsigned
  by_cases h1 : lower s = ['i', 'n', 'f'] ∨ lower s = ['i', 'n', 'f', 'i', 'n', 'i', 't', 'y']
  · rw [if_pos h1]
    constructor
    · intro h
      cases h
      rcases h1 with h | h
      · exact .inf s (l1.mp h)
      · exact .infinity s (l2.mp h)
    · intro h
      cases h with
      | inf s h => rfl
      | infinity s h => rfl
      | nan s h =>
        exfalso
        rw [← l3] at h
        rcases h1 with h' | h' <;> rw [h'] at h <;> revert h <;> decide
      | decimal m x ds k e hm hx =>
        exfalso
        rcases h1 with h' | h'
        · exact letters_not_mantissa (l1.mp h') (by decide) hm rfl
        · exact letters_not_mantissa (l2.mp h') (by decide) hm rfl
  · rw [if_neg h1]
    by_cases h3 : lower s = ['n', 'a', 'n']
    · rw [if_pos h3]
      constructor
      · intro h
        cases h
        exact .nan s (l3.mp h3)
      · intro h
        cases h with
        | inf s h => exact absurd (Or.inl (l1.mpr h)) h1
        | infinity s h => exact absurd (Or.inr (l2.mpr h)) h1
        | nan s h => rfl
        | decimal m x ds k e hm hx => exact absurd rfl (letters_not_mantissa (l3.mp h3) (by decide) hm)
    · rw [if_neg h3]
      constructor
      · intro h
        split at h
        · rename_i a b e ha he
          cases h
          have hm := mantissa_some ha
          rw [exponent_iff _ _ (by
            intro c hc
            have := List.head?_dropWhile_not (fun c => !isE c) s
            rw [Option.mem_def.mp hc] at this
            simpa using this)] at he
          have := Literal.decimal _ _ _ _ _ hm he
          rw [List.takeWhile_append_dropWhile] at this
          rw [ofDigits_number]
          exact this
        · cases h
      · intro h
        cases h with
        | inf s h => exact absurd (Or.inl (l1.mpr h)) h1
        | infinity s h => exact absurd (Or.inr (l2.mpr h)) h1
        | nan s h => exact absurd (l3.mpr h) h3
        | decimal m x ds k e hm hx =>
          have hE : ∀ c ∈ m, (!isE c) = true := by
            intro c hc
            rcases hm.chars.2 c hc with h | rfl
            · simp [(char_facts h).2.1]
            · rfl
          have hsplit : (m ++ x).takeWhile (fun c => !isE c) = m ∧ (m ++ x).dropWhile (fun c => !isE c) = x := by
            cases x with
            | nil => rw [List.append_nil]; exact takeWhile_all _ m hE
            | cons c x => exact takeWhile_append_stop _ m c x hE (by simp [hx.head c rfl])
          obtain ⟨a, b, e1, rfl, rfl⟩ := mantissa_of hm
          rw [hsplit.1, hsplit.2, e1, (exponent_iff x e hx.head).mpr hx]
          simp only [ofDigits_number]

theorem Literal.chars {s : Text} {v : Value} (h : Literal s v) : s ≠ [] ∧ (∀ c ∈ s, isSpace c = false) ∧ ∀ c ∈ s.head?, c ≠ '-' ∧ c ≠ '+' := by
  have letters : ∀ t : Text, t ≠ [] → SameLetters s t → (∀ d ∈ t, (isSpace d = false ∧ d ≠ '-' ∧ d ≠ '+') ∧ isSpace d.toUpper = false ∧ d.toUpper ≠ '-' ∧ d.toUpper ≠ '+') →
      s ≠ [] ∧ (∀ c ∈ s, isSpace c = false) ∧ ∀ c ∈ s.head?, c ≠ '-' ∧ c ≠ '+' := by
    intro t hne h ht
    refine ⟨?_, ?_, ?_⟩
    · rintro rfl
      unfold SameLetters at h
      rw [List.forall₂_nil_left_iff] at h
      exact hne h
    · intro c hc
      obtain ⟨d, hd, rfl | rfl⟩ := sameLetters_chars h c hc
      · exact (ht c hd).1.1
      · exact (ht d hd).2.1
    · intro c hc
      obtain ⟨d, hd, rfl | rfl⟩ := sameLetters_chars h c (List.mem_of_mem_head? hc)
      · exact (ht c hd).1.2
      · exact (ht d hd).2.2
  cases h with
  | inf s h => exact letters _ (by decide) h (by decide)
  | infinity s h => exact letters _ (by decide) h (by decide)
  | nan s h => exact letters _ (by decide) h (by decide)
  | decimal m x ds k e hm hx =>
    obtain ⟨hne, hch⟩ := hm.chars
    refine ⟨by simp [hne], ?_, ?_⟩
    · intro c hc
      rcases List.mem_append.mp hc with h | h
      · rcases hch c h with h | rfl
        · exact (char_facts h).1
        · rfl
      · exact hx.nospace c h
    · intro c hc
      cases m with
      | nil => exact absurd rfl hne
      | cons d m =>
        simp at hc
        subst hc
        rcases hch d (by simp) with (h | rfl) | rfl
        · obtain ⟨h1, h2⟩ := digitChar_of_isDigit h
          rw [← h2]
          exact ⟨(digitChar_facts _ h1).2.2.2.2.2.1, (digitChar_facts _ h1).2.2.2.2.2.2⟩
        · decide
        · decide

theorem signed_iff {sg : Text} {k : ℤ} (h : Sign sg k) (w v : Value) : w.signed k = v ↔ Signed k w v := by
  have h1 : ∀ w : Value, w.signed 1 = w := by
    intro w; cases w <;> simp [Value.signed]
  have hneg : w.signed (-1) = v ↔ Signed (-1) w v := by
    constructor
    · rintro rfl
      cases w with
      | num q => simpa [Value.signed] using Signed.negNum q
      | inf b => simpa [Value.signed] using Signed.negInf b
      | nan => simpa [Value.signed] using Signed.negNan
    · intro h
      generalize hk : (-1 : ℤ) = k at h
      cases h with
      | pos => norm_num at hk
      | negNum => simp [Value.signed]
      | negInf => simp [Value.signed]
      | negNan => simp [Value.signed]
  have hpos : w.signed 1 = v ↔ Signed 1 w v := by
    rw [h1]
    constructor
    · rintro rfl; exact .pos w
    · intro h
      generalize hk : (1 : ℤ) = k at h
      cases h with
      | pos => rfl
      | negNum => norm_num at hk
      | negInf => norm_num at hk
      | negNan => norm_num at hk
  cases h with
  | none => exact hpos
  | plus => exact hpos
  | minus => exact hneg

theorem float?_iff (s : Text) (v : Value) : float? s = some v ↔ FloatText s v := by
  unfold float?
  simp only
  constructor
  · intro h
    rw [Option.map_eq_some_iff] at h
    obtain ⟨w, hw, hv⟩ := h
    obtain ⟨a, b, ha, hb, e⟩ := strip_decomp s
    obtain ⟨sg, hsg, e2⟩ := signOf_spec (strip s)
    refine ⟨a, sg, (signOf (strip s)).2, b, (signOf (strip s)).1, w, ?_, ha, hb, hsg, (unsigned_iff _ w).mp hw, (signed_iff hsg w v).mp hv⟩
    rw [List.append_assoc a, ← e2]
    exact e
  · rintro ⟨a, sg, body, b, k, w, rfl, ha, hb, hsg, hl, hv⟩
    obtain ⟨hne, hsp, hhd⟩ := hl.chars
    have hns : ∀ c ∈ sg ++ body, isSpace c = false := by
      intro c hc
      rcases List.mem_append.mp hc with h | h
      · exact sign_nospace hsg c h
      · exact hsp c h
    rw [List.append_assoc a, strip_eq a (sg ++ body) b ha hb hns (by intro h; exact hne (List.append_eq_nil_iff.mp h).2), signOf_eq hsg hhd]
    simp only
    rw [(unsigned_iff body w).mpr hl, Option.map_some, (signed_iff hsg w v).mpr hv]

end Strata.Cli
