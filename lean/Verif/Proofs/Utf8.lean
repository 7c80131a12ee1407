import Verif.Spec.Simple
/-! # The UTF-8 decoder -/
namespace Strata.Simple
open Strata Strata.Flow Strata.Bytes

theorem toNat_ofNat {n : ℕ} (h : n < 256) : (UInt8.ofNat n).toNat = n := by
  rw [UInt8.toNat_ofNat']; exact Nat.mod_eq_of_lt h

theorem ofNat_eq (b : UInt8) (n : ℕ) (h : b.toNat = n) : UInt8.ofNat n = b := by
  rw [← h]; exact UInt8.ofNat_toNat

theorem char_range (c : Char) : c.val.toNat < 0xD800 ∨ (0xDFFF < c.val.toNat ∧ c.val.toNat < 0x110000) := c.valid

theorem cont_iff (lo hi : ℕ) (b : UInt8) : cont lo hi b = true ↔ lo ≤ b.toNat ∧ b.toNat ≤ hi := by
  unfold cont
  rw [Bool.and_eq_true, decide_eq_true_iff, decide_eq_true_iff]

/-- Two, three and four byte characters, and their beginnings. -/
abbrev Lead2 (a : UInt8) : Prop := 0xC2 ≤ a.toNat ∧ a.toNat ≤ 0xDF
abbrev Lead3 (a : UInt8) : Prop := 0xE0 ≤ a.toNat ∧ a.toNat ≤ 0xEF
abbrev Lead4 (a : UInt8) : Prop := 0xF0 ≤ a.toNat ∧ a.toNat ≤ 0xF4
abbrev Cont (b : UInt8) : Prop := 0x80 ≤ b.toNat ∧ b.toNat ≤ 0xBF
abbrev Second3 (a b : UInt8) : Prop := (if a.toNat = 0xE0 then 0xA0 else 0x80) ≤ b.toNat ∧ b.toNat ≤ (if a.toNat = 0xED then 0x9F else 0xBF)
abbrev Second4 (a b : UInt8) : Prop := (if a.toNat = 0xF0 then 0x90 else 0x80) ≤ b.toNat ∧ b.toNat ≤ (if a.toNat = 0xF4 then 0x8F else 0xBF)

theorem utf8_1 (a : UInt8) (r : Bytes) (h : a.toNat < 0x80) : utf8 (a :: r) = ((utf8 r).1 + 1, (utf8 r).2) := by
  rw [utf8.eq_def]; simp only; rw [if_pos h]

theorem utf8_2 (a b : UInt8) (r : Bytes) (h : Lead2 a) (hb : Cont b) : utf8 (a :: b :: r) = ((utf8 r).1 + 1, (utf8 r).2) := by
  rw [utf8.eq_def]; simp only; rw [if_neg (by unfold Lead2 at h; omega), if_pos h, if_pos ((cont_iff ..).mpr hb)]

theorem utf8_2a (a : UInt8) (h : Lead2 a) : utf8 [a] = (0, .more) := by
  rw [utf8.eq_def]; simp only; rw [if_neg (by unfold Lead2 at h; omega), if_pos h]

theorem utf8_3 (a b c : UInt8) (r : Bytes) (h : Lead3 a) (hb : Second3 a b) (hc : Cont c) :
    utf8 (a :: b :: c :: r) = ((utf8 r).1 + 1, (utf8 r).2) := by
  rw [utf8.eq_def]; simp only
  rw [if_neg (by unfold Lead3 at h; omega), if_neg (by unfold Lead3 at h; omega), if_pos h, if_pos ((cont_iff ..).mpr hb), if_pos ((cont_iff ..).mpr hc)]

theorem utf8_3a (a : UInt8) (h : Lead3 a) : utf8 [a] = (0, .more) := by
  rw [utf8.eq_def]; simp only
  rw [if_neg (by unfold Lead3 at h; omega), if_neg (by unfold Lead3 at h; omega), if_pos h]

theorem utf8_3b (a b : UInt8) (h : Lead3 a) (hb : Second3 a b) : utf8 [a, b] = (0, .more) := by
  rw [utf8.eq_def]; simp only
  rw [if_neg (by unfold Lead3 at h; omega), if_neg (by unfold Lead3 at h; omega), if_pos h, if_pos ((cont_iff ..).mpr hb)]

theorem utf8_4 (a b c d : UInt8) (r : Bytes) (h : Lead4 a) (hb : Second4 a b) (hc : Cont c) (hd : Cont d) :
    utf8 (a :: b :: c :: d :: r) = ((utf8 r).1 + 1, (utf8 r).2) := by
  rw [utf8.eq_def]; simp only
  rw [if_neg (by unfold Lead4 at h; omega), if_neg (by unfold Lead4 at h; omega), if_neg (by unfold Lead4 at h; omega), if_pos h,
    if_pos ((cont_iff ..).mpr hb), if_pos ((cont_iff ..).mpr hc), if_pos ((cont_iff ..).mpr hd)]

theorem utf8_4a (a : UInt8) (h : Lead4 a) : utf8 [a] = (0, .more) := by
  rw [utf8.eq_def]; simp only
  rw [if_neg (by unfold Lead4 at h; omega), if_neg (by unfold Lead4 at h; omega), if_neg (by unfold Lead4 at h; omega), if_pos h]

theorem utf8_4b (a b : UInt8) (h : Lead4 a) (hb : Second4 a b) : utf8 [a, b] = (0, .more) := by
  rw [utf8.eq_def]; simp only
  rw [if_neg (by unfold Lead4 at h; omega), if_neg (by unfold Lead4 at h; omega), if_neg (by unfold Lead4 at h; omega), if_pos h,
    if_pos ((cont_iff ..).mpr hb)]

theorem utf8_4c (a b c : UInt8) (h : Lead4 a) (hb : Second4 a b) (hc : Cont c) : utf8 [a, b, c] = (0, .more) := by
  rw [utf8.eq_def]; simp only
  rw [if_neg (by unfold Lead4 at h; omega), if_neg (by unfold Lead4 at h; omega), if_neg (by unfold Lead4 at h; omega), if_pos h,
    if_pos ((cont_iff ..).mpr hb), if_pos ((cont_iff ..).mpr hc)]

/-- The shapes of an encoded character. -/
inductive Shape : Bytes → Prop
  | one (a : UInt8) (h : a.toNat < 0x80) : Shape [a]
  | two (a b : UInt8) (h : Lead2 a) (hb : Cont b) : Shape [a, b]
  | three (a b c : UInt8) (h : Lead3 a) (hb : Second3 a b) (hc : Cont c) : Shape [a, b, c]
  | four (a b c d : UInt8) (h : Lead4 a) (hb : Second4 a b) (hc : Cont c) (hd : Cont d) : Shape [a, b, c, d]

theorem shape_encode (c : Char) : Shape (String.utf8EncodeChar c) := by
  have hc := char_range c
  unfold String.utf8EncodeChar
  simp only
  generalize c.val.toNat = v at hc
  split_ifs with h1 h2 h3
  · exact .one _ (by rw [toNat_ofNat (by omega)]; omega)
  · refine .two _ _ ?_ ?_
    · unfold Lead2; rw [toNat_ofNat (by omega)]; omega
    · unfold Cont; rw [toNat_ofNat (by omega)]; omega
  · refine .three _ _ _ ?_ ?_ ?_
    · unfold Lead3; rw [toNat_ofNat (by omega)]; omega
    · unfold Second3; rw [toNat_ofNat (by omega), toNat_ofNat (by omega)]; split_ifs <;> omega
    · unfold Cont; rw [toNat_ofNat (by omega)]; omega
  · refine .four _ _ _ _ ?_ ?_ ?_ ?_
    · unfold Lead4; rw [toNat_ofNat (by omega)]; omega
    · unfold Second4; rw [toNat_ofNat (by omega), toNat_ofNat (by omega)]; split_ifs <;> omega
    · unfold Cont; rw [toNat_ofNat (by omega)]; omega
    · unfold Cont; rw [toNat_ofNat (by omega)]; omega

theorem char_exists (v : ℕ) (h : v < 0xD800 ∨ (0xDFFF < v ∧ v < 0x110000)) : ∃ c : Char, c.val.toNat = v :=
  ⟨⟨UInt32.ofNat v, by
    have : (UInt32.ofNat v).toNat = v := by rw [UInt32.toNat_ofNat']; exact Nat.mod_eq_of_lt (by omega)
    unfold UInt32.isValidChar Nat.isValidChar
    rw [this]; exact h⟩, by
    show (UInt32.ofNat v).toNat = v
    rw [UInt32.toNat_ofNat']; exact Nat.mod_eq_of_lt (by omega)⟩

theorem encode_of_shape (b : Bytes) (h : Shape b) : ∃ c : Char, String.utf8EncodeChar c = b := by
  cases h with
  | one a h =>
    obtain ⟨c, hc⟩ := char_exists a.toNat (by omega)
    refine ⟨c, ?_⟩
    unfold String.utf8EncodeChar
    simp only [hc]
    rw [if_pos (by omega), UInt8.ofNat_toNat]
  | two a b h hb =>
    unfold Lead2 at h; unfold Cont at hb
    obtain ⟨c, hc⟩ := char_exists ((a.toNat - 0xC0) * 64 + (b.toNat - 0x80)) (by omega)
    refine ⟨c, ?_⟩
    unfold String.utf8EncodeChar
    simp only [hc]
    rw [if_neg (by omega), if_pos (by omega), ofNat_eq a _ (by omega), ofNat_eq b _ (by omega)]
  | three a b c h hb hc' =>
    unfold Lead3 at h; unfold Second3 at hb; unfold Cont at hc'
    obtain ⟨ch, hc⟩ := char_exists ((a.toNat - 0xE0) * 4096 + (b.toNat - 0x80) * 64 + (c.toNat - 0x80)) (by split_ifs at hb <;> omega)
    refine ⟨ch, ?_⟩
    unfold String.utf8EncodeChar
    simp only [hc]
    rw [if_neg (by split_ifs at hb <;> omega), if_neg (by split_ifs at hb <;> omega), if_pos (by split_ifs at hb <;> omega),
      ofNat_eq a _ (by split_ifs at hb <;> omega), ofNat_eq b _ (by split_ifs at hb <;> omega), ofNat_eq c _ (by split_ifs at hb <;> omega)]
  | four a b c d h hb hc' hd =>
    unfold Lead4 at h; unfold Second4 at hb; unfold Cont at hc' hd
    obtain ⟨ch, hc⟩ := char_exists ((a.toNat - 0xF0) * 262144 + (b.toNat - 0x80) * 4096 + (c.toNat - 0x80) * 64 + (d.toNat - 0x80)) (by split_ifs at hb <;> omega)
    refine ⟨ch, ?_⟩
    unfold String.utf8EncodeChar
    simp only [hc]
    rw [if_neg (by split_ifs at hb <;> omega), if_neg (by split_ifs at hb <;> omega), if_neg (by split_ifs at hb <;> omega),
      ofNat_eq a _ (by split_ifs at hb <;> omega), ofNat_eq b _ (by split_ifs at hb <;> omega), ofNat_eq c _ (by split_ifs at hb <;> omega),
      ofNat_eq d _ (by split_ifs at hb <;> omega)]

theorem utf8_shape (e : Bytes) (h : Shape e) (r : Bytes) : utf8 (e ++ r) = ((utf8 r).1 + 1, (utf8 r).2) := by
  cases h with
  | one a h => exact utf8_1 a r h
  | two a b h hb => exact utf8_2 a b r h hb
  | three a b c h hb hc => exact utf8_3 a b c r h hb hc
  | four a b c d h hb hc hd => exact utf8_4 a b c d r h hb hc hd

/-- A part of a character is unfinished. -/
theorem utf8_prefix (p r : Bytes) (h : Shape (p ++ r)) (hr : r ≠ []) (hp : p ≠ []) : utf8 p = (0, .more) := by
  generalize he : p ++ r = e at h
  cases h with
  | one a h =>
    match p, hp, he with
    | [_], _, he => simp at he; exact absurd he.2 hr
    | _ :: _ :: _, _, he => simp at he
  | two a b h hb =>
    match p, hp, he with
    | [_], _, he => simp at he; rw [he.1]; exact utf8_2a a h
    | [_, _], _, he => simp at he; exact absurd he.2.2 hr
    | _ :: _ :: _ :: _, _, he => simp at he
  | three a b c h hb hc =>
    match p, hp, he with
    | [_], _, he => simp at he; rw [he.1]; exact utf8_3a a h
    | [_, _], _, he => simp at he; rw [he.1, he.2.1]; exact utf8_3b a b h hb
    | [_, _, _], _, he => simp at he; exact absurd he.2.2.2 hr
    | _ :: _ :: _ :: _ :: _, _, he => simp at he
  | four a b c d h hb hc hd =>
    match p, hp, he with
    | [_], _, he => simp at he; rw [he.1]; exact utf8_4a a h
    | [_, _], _, he => simp at he; rw [he.1, he.2.1]; exact utf8_4b a b h hb
    | [_, _, _], _, he => simp at he; rw [he.1, he.2.1, he.2.2.1]; exact utf8_4c a b c h hb hc
    | [_, _, _, _], _, he => simp at he; exact absurd he.2.2.2.2 hr
    | _ :: _ :: _ :: _ :: _ :: _, _, he => simp at he

/-- The first step of the decoder. -/
theorem utf8_cases (b : Bytes) : b = [] ∨ (∃ e r, Shape e ∧ b = e ++ r) ∨ (utf8 b = (0, .more) ∧ b.length ≤ 3 ∧ ∃ r, r ≠ [] ∧ Shape (b ++ r)) ∨ utf8 b = (0, .bad) := by
  have x80 : Cont 0x80 := by unfold Cont; decide
  match b with
  | [] => exact Or.inl rfl
  | a :: r =>
    right
    by_cases h1 : a.toNat < 0x80
    · exact Or.inl ⟨[a], r, .one a h1, rfl⟩
    by_cases h2 : Lead2 a
    · match r with
      | [] => exact Or.inr (Or.inl ⟨utf8_2a a h2, by simp, [0x80], by simp, .two _ _ h2 x80⟩)
      | b :: r =>
        by_cases hb : Cont b
        · exact Or.inl ⟨[a, b], r, .two a b h2 hb, rfl⟩
        · right; right
          rw [utf8.eq_def]; simp only; rw [if_neg h1, if_pos h2, if_neg (by rw [cont_iff]; exact hb)]
    by_cases h3 : Lead3 a
    · match r with
      | [] =>
        refine Or.inr (Or.inl ⟨utf8_3a a h3, by simp, [if a.toNat = 0xE0 then 0xA0 else 0x80, 0x80], by simp, .three _ _ _ h3 ?_ x80⟩)
        unfold Second3 Lead3 at *
        split_ifs <;> first | omega | decide
      | b :: r =>
        by_cases hb : Second3 a b
        · match r with
          | [] => exact Or.inr (Or.inl ⟨utf8_3b a b h3 hb, by simp, [0x80], by simp, .three _ _ _ h3 hb x80⟩)
          | c :: r =>
            by_cases hc : Cont c
            · exact Or.inl ⟨[a, b, c], r, .three a b c h3 hb hc, rfl⟩
            · right; right
              rw [utf8.eq_def]; simp only
              rw [if_neg h1, if_neg h2, if_pos h3, if_pos ((cont_iff ..).mpr hb), if_neg (by rw [cont_iff]; exact hc)]
        · right; right
          rw [utf8.eq_def]; simp only
          rw [if_neg h1, if_neg h2, if_pos h3, if_neg (by rw [cont_iff]; exact hb)]
    by_cases h4 : Lead4 a
    · match r with
      | [] =>
        refine Or.inr (Or.inl ⟨utf8_4a a h4, by simp, [if a.toNat = 0xF0 then 0x90 else 0x80, 0x80, 0x80], by simp, .four _ _ _ _ h4 ?_ x80 x80⟩)
        unfold Second4 Lead4 at *
        split_ifs <;> first | omega | decide
      | b :: r =>
        by_cases hb : Second4 a b
        · match r with
          | [] => exact Or.inr (Or.inl ⟨utf8_4b a b h4 hb, by simp, [0x80, 0x80], by simp, .four _ _ _ _ h4 hb x80 x80⟩)
          | c :: r =>
            by_cases hc : Cont c
            · match r with
              | [] => exact Or.inr (Or.inl ⟨utf8_4c a b c h4 hb hc, by simp, [0x80], by simp, .four _ _ _ _ h4 hb hc x80⟩)
              | d :: r =>
                by_cases hd : Cont d
                · exact Or.inl ⟨[a, b, c, d], r, .four a b c d h4 hb hc hd, rfl⟩
                · right; right
                  rw [utf8.eq_def]; simp only
                  rw [if_neg h1, if_neg h2, if_neg h3, if_pos h4, if_pos ((cont_iff ..).mpr hb), if_pos ((cont_iff ..).mpr hc),
                    if_neg (by rw [cont_iff]; exact hd)]
            · right; right
              rw [utf8.eq_def]; simp only
              rw [if_neg h1, if_neg h2, if_neg h3, if_pos h4, if_pos ((cont_iff ..).mpr hb), if_neg (by rw [cont_iff]; exact hc)]
        · right; right
          rw [utf8.eq_def]; simp only
          rw [if_neg h1, if_neg h2, if_neg h3, if_pos h4, if_neg (by rw [cont_iff]; exact hb)]
    · right; right
      rw [utf8.eq_def]; simp only
      rw [if_neg h1, if_neg h2, if_neg h3, if_neg h4]

theorem shape_length {e : Bytes} (h : Shape e) : 1 ≤ e.length ∧ e.length ≤ 4 := by
  cases h <;> simp

/-- What the decoder says, by the encodings of texts. -/
theorem utf8_spec : ∀ (n : ℕ) (b : Bytes), b.length ≤ n →
    ((utf8 b).2 = .ok → ∃ s : List Char, b = s.flatMap String.utf8EncodeChar ∧ s.length = (utf8 b).1) ∧
    ((utf8 b).2 = .more → ∃ r, r ≠ [] ∧ ValidUtf8 (b ++ r)) ∧
    ((utf8 b).2 ≠ .bad → b.length ≤ 4 * (utf8 b).1 + 3) ∧ (utf8 b).1 ≤ b.length := by
  intro n
  induction n with
  | zero =>
    intro b hb
    have : b = [] := List.eq_nil_of_length_eq_zero (by omega)
    subst this
    exact ⟨fun _ => ⟨[], rfl, rfl⟩, fun h => by simp [utf8] at h, fun _ => by simp, by simp [utf8]⟩
  | succ n ih =>
    intro b hb
    rcases utf8_cases b with rfl | ⟨e, r, he, rfl⟩ | ⟨h, hl, r, hr, hs⟩ | h
    · exact ⟨fun _ => ⟨[], rfl, rfl⟩, fun h => by simp [utf8] at h, fun _ => by simp, by simp [utf8]⟩
    · have hl := shape_length he
      rw [List.length_append] at hb
      obtain ⟨i1, i2, i3, i4⟩ := ih r (by omega)
      obtain ⟨c, hc⟩ := encode_of_shape e he
      rw [utf8_shape e he, List.length_append]
      simp only
      refine ⟨?_, ?_, ?_, by omega⟩
      · intro h
        obtain ⟨s, hs, hsl⟩ := i1 h
        exact ⟨c :: s, by rw [List.flatMap_cons, hc, ← hs], by simp [hsl]⟩
      · intro h
        obtain ⟨r', hr', s, hs⟩ := i2 h
        exact ⟨r', hr', c :: s, by rw [List.flatMap_cons, hc, ← hs, List.append_assoc]⟩
      · intro h
        have := i3 h
        omega
    · rw [h]
      obtain ⟨c, hc⟩ := encode_of_shape _ hs
      refine ⟨by simp, fun _ => ⟨r, hr, [c], by simp [hc]⟩, fun _ => by simpa using hl, by simp⟩
    · rw [h]; simp

theorem utf8_valid (s : List Char) : utf8 (s.flatMap String.utf8EncodeChar) = (s.length, .ok) := by
  induction s with
  | nil => rfl
  | cons c s ih => rw [List.flatMap_cons, utf8_shape _ (shape_encode c), ih]; rfl

/-- The beginning of a valid text is decodable but for an unfinished last character. -/
theorem utf8_take_valid : ∀ (s : List Char) (b r : Bytes), b ++ r = s.flatMap String.utf8EncodeChar → (utf8 b).2 ≠ .bad := by
  intro s
  induction s with
  | nil =>
    intro b r h
    have : b = [] := by simpa using (List.append_eq_nil_iff.mp h).1
    rw [this]; simp [utf8]
  | cons c s ih =>
    intro b r h
    rw [List.flatMap_cons] at h
    rcases List.append_eq_append_iff.mp h with ⟨a', h1, h2⟩ | ⟨a', h1, h2⟩
    · by_cases ha : a' = []
      · rw [ha, List.append_nil] at h1
        rw [← h1]
        have := utf8_shape _ (shape_encode c) []
        rw [List.append_nil] at this
        rw [this]; simp [utf8]
      · by_cases hb : b = []
        · rw [hb]; simp [utf8]
        · rw [utf8_prefix b a' (h1 ▸ shape_encode c) ha hb]; simp
    · rw [h1, utf8_shape _ (shape_encode c)]
      exact ih a' r h2.symm

/-- Decodable so far: the beginning of a valid text. -/
theorem not_bad_iff (b : Bytes) : (utf8 b).2 ≠ .bad ↔ ∃ r, ValidUtf8 (b ++ r) := by
  constructor
  · intro h
    obtain ⟨i1, i2, _, _⟩ := utf8_spec b.length b le_rfl
    cases hs : (utf8 b).2 with
    | ok =>
      obtain ⟨s, hs, _⟩ := i1 hs
      exact ⟨[], s, by rw [List.append_nil]; exact hs⟩
    | more => obtain ⟨r, _, hr⟩ := i2 hs; exact ⟨r, hr⟩
    | bad => exact absurd hs h
  · rintro ⟨r, s, hs⟩
    exact utf8_take_valid s b r hs

theorem ok_iff (b : Bytes) : (utf8 b).2 = .ok ↔ ValidUtf8 b := by
  constructor
  · intro h
    obtain ⟨s, hs, _⟩ := (utf8_spec b.length b le_rfl).1 h
    exact ⟨s, hs⟩
  · rintro ⟨s, rfl⟩
    rw [utf8_valid]

theorem isBinary_eq (content : Bytes) : isBinary content = false ↔
    (utf8 (content.take 8192)).2 = .ok ∨ ((utf8 (content.take 8192)).2 = .more ∧ 512 ≤ (utf8 (content.take 8192)).1) := by
  unfold isBinary
  generalize utf8 (content.take 8192) = p
  obtain ⟨n, st⟩ := p
  cases st <;> simp

end Strata.Simple
