import Verif.Props.Layout
import Verif.Props.Gmx
/-!
# Headers of binary maps in any layout: C145
-/
namespace Strata.Layout
open Strata Strata.Flow Strata.Average Strata.Bytes Strata.PyText Strata.Files Strata.Gmx

theorem headLine_other' (h : Gmx.Head) {l w : Text} {ws : List Text} (e : words l = w :: ws) (k1 : upper w ≠ "SHAPE".toList) (k2 : upper w ≠ "SPACING".toList)
    (k3 : upper w ≠ "ORIGIN".toList) (k4 : upper w ≠ "FIELDS".toList) (k5 : upper w ≠ "NUMDATA".toList) : headLine h l = .ok h := by
  unfold headLine
  rw [e]
  simp only
  rw [if_neg k1, if_neg k2, if_neg k3, if_neg k4, if_neg k5]

/-- What a line can change. -/
theorem headLine_keeps {h h' : Gmx.Head} {l : Text} (e : headLine h l = .ok h') :
    (¬ Keyed "SHAPE" (words l) → h'.shape = h.shape) ∧ (¬ Keyed "SPACING" (words l) → h'.spacing = h.spacing) ∧ (¬ Keyed "ORIGIN" (words l) → h'.origin = h.origin) ∧
      (¬ Keyed "FIELDS" (words l) → h'.fields = h.fields) ∧ (¬ Keyed "NUMDATA" (words l) → h'.num = h.num) := by
  unfold headLine at e
  cases hw : words l with
  | nil => rw [hw] at e; cases e
  | cons w ws =>
    rw [hw] at e
    simp only at e
    by_cases k1 : upper w = "SHAPE".toList
    · rw [if_pos k1] at e
      obtain ⟨a, -, h2⟩ := Simple.bind_eq_ok e
      cases h2
      exact ⟨fun hn => absurd ⟨w, ws, rfl, k1⟩ hn, fun _ => rfl, fun _ => rfl, fun _ => rfl, fun _ => rfl⟩
    rw [if_neg k1] at e
    by_cases k2 : upper w = "SPACING".toList
    · rw [if_pos k2] at e
      obtain ⟨a, -, h2⟩ := Simple.bind_eq_ok e
      cases h2
      exact ⟨fun _ => rfl, fun hn => absurd ⟨w, ws, rfl, k2⟩ hn, fun _ => rfl, fun _ => rfl, fun _ => rfl⟩
    rw [if_neg k2] at e
    by_cases k3 : upper w = "ORIGIN".toList
    · rw [if_pos k3] at e
      obtain ⟨a, -, h2⟩ := Simple.bind_eq_ok e
      cases h2
      exact ⟨fun _ => rfl, fun _ => rfl, fun hn => absurd ⟨w, ws, rfl, k3⟩ hn, fun _ => rfl, fun _ => rfl⟩
    rw [if_neg k3] at e
    by_cases k4 : upper w = "FIELDS".toList
    · rw [if_pos k4] at e
      cases e
      exact ⟨fun _ => rfl, fun _ => rfl, fun _ => rfl, fun hn => absurd ⟨w, ws, rfl, k4⟩ hn, fun _ => rfl⟩
    rw [if_neg k4] at e
    by_cases k5 : upper w = "NUMDATA".toList
    · rw [if_pos k5] at e
      cases ws with
      | nil => cases e
      | cons v vs =>
        simp only at e
        obtain ⟨a, -, h2⟩ := Simple.bind_eq_ok e
        cases h2
        exact ⟨fun _ => rfl, fun _ => rfl, fun _ => rfl, fun _ => rfl, fun hn => absurd ⟨w, v :: vs, rfl, k5⟩ hn⟩
    rw [if_neg k5] at e
    cases e
    exact ⟨fun _ => rfl, fun _ => rfl, fun _ => rfl, fun _ => rfl, fun _ => rfl⟩

theorem headLines_keeps : ∀ (ls : List Text) (h h' : Gmx.Head), ls.foldlM headLine h = .ok h' →
    ((∀ l ∈ ls, ¬ Keyed "SHAPE" (words l)) → h'.shape = h.shape) ∧ ((∀ l ∈ ls, ¬ Keyed "SPACING" (words l)) → h'.spacing = h.spacing) ∧
      ((∀ l ∈ ls, ¬ Keyed "ORIGIN" (words l)) → h'.origin = h.origin) ∧ ((∀ l ∈ ls, ¬ Keyed "FIELDS" (words l)) → h'.fields = h.fields) ∧
      ((∀ l ∈ ls, ¬ Keyed "NUMDATA" (words l)) → h'.num = h.num) := by
  intro ls
  induction ls with
  | nil => intro h h' e; cases e; exact ⟨fun _ => rfl, fun _ => rfl, fun _ => rfl, fun _ => rfl, fun _ => rfl⟩
  | cons l ls ih =>
    intro h h' e
    rw [List.foldlM_cons] at e
    obtain ⟨m, h1, h2⟩ := Simple.bind_eq_ok e
    obtain ⟨a1, a2, a3, a4, a5⟩ := headLine_keeps h1
    obtain ⟨b1, b2, b3, b4, b5⟩ := ih m h' h2
    refine ⟨fun hn => ?_, fun hn => ?_, fun hn => ?_, fun hn => ?_, fun hn => ?_⟩
    · rw [b1 fun l hl => hn l (by simp [hl]), a1 (hn l (by simp))]
    · rw [b2 fun l hl => hn l (by simp [hl]), a2 (hn l (by simp))]
    · rw [b3 fun l hl => hn l (by simp [hl]), a3 (hn l (by simp))]
    · rw [b4 fun l hl => hn l (by simp [hl]), a4 (hn l (by simp))]
    · rw [b5 fun l hl => hn l (by simp [hl]), a5 (hn l (by simp))]

/-! ## Numbers -/

theorem digit_char {d : ℕ} (h : d < 10) : (Char.ofNat (48 + d)).isDigit = true ∧ (Char.ofNat (48 + d)).toNat = 48 + d ∧ Char.ofNat (48 + d) ≠ '.' ∧ Char.ofNat (48 + d) ≠ '-' ∧ Char.ofNat (48 + d) ≠ '+' := by
  have : ∀ d : ℕ, d < 10 → (Char.ofNat (48 + d)).isDigit = true ∧ (Char.ofNat (48 + d)).toNat = 48 + d ∧ Char.ofNat (48 + d) ≠ '.' ∧ Char.ofNat (48 + d) ≠ '-' ∧ Char.ofNat (48 + d) ≠ '+' := by decide
  exact this d h

theorem digits_value : ∀ (ds : List ℕ) (acc : ℕ), (∀ d ∈ ds, d < 10) → PyText.digits? acc (digitsText ds) = some (acc * 10 ^ ds.length + Nat.ofDigits 10 ds.reverse)
  | [], acc, _ => by simp [PyText.digits?, digitsText]
  | d :: ds, acc, h => by
    have hd := digit_char (h d List.mem_cons_self)
    unfold digitsText
    rw [List.map_cons, PyText.digits?, if_pos hd.1, hd.2.1]
    rw [show (ds.map fun d => Char.ofNat (48 + d)) = digitsText ds from rfl, digits_value ds _ fun e he => h e (List.mem_cons_of_mem _ he)]
    rw [List.reverse_cons, Nat.ofDigits_append, List.length_reverse, List.length_cons, Nat.ofDigits_singleton]
    congr 1
    have : 48 + d - 48 = d := by omega
    rw [this]
    ring

theorem signOf_sign {p t : Text} {sg : ℤ} (h : Sign p sg) (ht : ∀ c, t.head? = some c → c ≠ '-' ∧ c ≠ '+') : PyText.signOf (p ++ t) = (sg, t) := by
  cases h with
  | none =>
    cases t with
    | nil => rfl
    | cons c t =>
      obtain ⟨h1, h2⟩ := ht c rfl
      rw [List.nil_append]
      unfold PyText.signOf
      split
      · rename_i s h; injection h with h _; exact absurd h h1
      · rename_i s h; injection h with h _; exact absurd h h2
      · rfl
  | plus => rfl
  | minus => rfl

theorem head_digits {ds : List ℕ} {t : Text} (h : ∀ d ∈ ds, d < 10) (ht : ds = [] → ∀ c, t.head? = some c → c ≠ '-' ∧ c ≠ '+') : ∀ c, (digitsText ds ++ t).head? = some c → c ≠ '-' ∧ c ≠ '+' := by
  intro c hc
  cases ds with
  | nil => exact ht rfl c hc
  | cons d ds =>
    have hd := digit_char (h d List.mem_cons_self)
    have : c = Char.ofNat (48 + d) := by
      unfold digitsText at hc
      simpa using hc.symm
    subst this
    exact ⟨hd.2.2.2.1, hd.2.2.2.2⟩

/-- Whole numbers are read. -/
theorem Whole.read {w : Text} {n : ℤ} (h : Whole w n) : PyText.pyInt w = .ok n := by
  obtain ⟨p, sg, ds, hs, hne, hd, rfl, rfl⟩ := h
  unfold PyText.pyInt
  have hh : ∀ c, (digitsText ds).head? = some c → c ≠ '-' ∧ c ≠ '+' := by
    have := head_digits (t := []) hd (fun e => absurd e hne)
    rwa [List.append_nil] at this
  rw [signOf_sign hs hh]
  simp only
  rw [if_neg (by unfold digitsText; simpa using hne), digits_value ds 0 hd]
  simp

theorem takeWhile_digits {ds : List ℕ} (h : ∀ d ∈ ds, d < 10) (t : Text) : (digitsText ds ++ '.' :: t).takeWhile (· ≠ '.') = digitsText ds ∧
    (digitsText ds ++ '.' :: t).dropWhile (· ≠ '.') = '.' :: t := by
  induction ds with
  | nil => exact ⟨rfl, rfl⟩
  | cons d ds ih =>
    have hd := digit_char (h d List.mem_cons_self)
    obtain ⟨h1, h2⟩ := ih fun e he => h e (List.mem_cons_of_mem _ he)
    have e : digitsText (d :: ds) ++ '.' :: t = Char.ofNat (48 + d) :: (digitsText ds ++ '.' :: t) := rfl
    rw [e, List.takeWhile_cons, List.dropWhile_cons, if_pos (by simpa using hd.2.2.1), if_pos (by simpa using hd.2.2.1), h1, h2]
    exact ⟨rfl, rfl⟩

theorem takeWhile_all {ds : List ℕ} (h : ∀ d ∈ ds, d < 10) : (digitsText ds).takeWhile (· ≠ '.') = digitsText ds ∧ (digitsText ds).dropWhile (· ≠ '.') = [] := by
  induction ds with
  | nil => exact ⟨rfl, rfl⟩
  | cons d ds ih =>
    have hd := digit_char (h d List.mem_cons_self)
    obtain ⟨h1, h2⟩ := ih fun e he => h e (List.mem_cons_of_mem _ he)
    have e : digitsText (d :: ds) = Char.ofNat (48 + d) :: digitsText ds := rfl
    rw [e, List.takeWhile_cons, List.dropWhile_cons, if_pos (by simpa using hd.2.2.1), if_pos (by simpa using hd.2.2.1), h1, h2]
    exact ⟨rfl, rfl⟩

/-- Numbers in decimal notation are read. -/
theorem Decimal.read {w : Text} {x : ℚ} (h : Decimal w x) : PyText.pyFloat w = .ok x := by
  obtain ⟨p, sg, ds, es, hs, hne, hd, hw, rfl⟩ := h
  have hds : ∀ d ∈ ds, d < 10 := fun d h => hd d (List.mem_append_left _ h)
  have happ : digitsText ds ++ digitsText es = digitsText (ds ++ es) := by unfold digitsText; rw [List.map_append]
  have hne' : digitsText (ds ++ es) ≠ [] := by unfold digitsText; simpa using hne
  have hlen : (digitsText es).length = es.length := by unfold digitsText; rw [List.length_map]
  unfold PyText.pyFloat
  rcases hw with rfl | ⟨rfl, rfl⟩
  · rw [List.append_assoc, signOf_sign hs (head_digits hds (by
      rintro - c hc
      injection hc with hc
      subst hc
      decide))]
    simp only
    obtain ⟨h1, h2⟩ := takeWhile_digits hds (digitsText es)
    rw [h1, h2, List.drop_one, List.tail_cons, happ, if_neg hne', digits_value _ 0 hd, hlen]
    simp
  · rw [signOf_sign hs (by
      have := head_digits (t := []) hds (fun e => absurd (by rw [e]; rfl) hne)
      rwa [List.append_nil] at this)]
    simp only
    obtain ⟨h1, h2⟩ := takeWhile_all hds
    rw [h1, h2, List.drop_nil, List.append_nil, if_neg (by rw [List.append_nil] at hne'; exact hne'), digits_value _ 0 hds]
    simp

/-- A header as parsed. -/
def parsed (v : Values) : Gmx.Head := ⟨some [v.shape.1, v.shape.2], some [v.spacing.1, v.spacing.2], some [v.origin.1, v.origin.2], some v.fields, some v.num⟩

/-- All entries of the lines are those of the header. -/
structure Agrees (ws : List Text) (v : Values) : Prop where
  shape : ∀ k vs, ws = k :: vs → upper k = "SHAPE".toList → (vs.take 2).mapM pyInt = .ok [v.shape.1, v.shape.2]
  spacing : ∀ k vs, ws = k :: vs → upper k = "SPACING".toList → (vs.take 2).mapM pyFloat = .ok [v.spacing.1, v.spacing.2]
  origin : ∀ k vs, ws = k :: vs → upper k = "ORIGIN".toList → (vs.take 2).mapM pyFloat = .ok [v.origin.1, v.origin.2]
  fields : ∀ k vs, ws = k :: vs → upper k = "FIELDS".toList → vs = v.fields
  num : ∀ k vs, ws = k :: vs → upper k = "NUMDATA".toList → ∃ a more, vs = a :: more ∧ pyInt a = .ok v.num

theorem Gives.agrees {lines : List (List Text)} {v : Values} (h : Gives lines v) : ∀ ws ∈ lines, Agrees ws v := by
  intro ws hws
  obtain ⟨a, b, m, ⟨-, hs⟩, s1, s2⟩ := h.shape
  obtain ⟨a', b', m', ⟨-, hp⟩, p1, p2⟩ := h.spacing
  obtain ⟨a'', b'', m'', ⟨-, ho⟩, o1, o2⟩ := h.origin
  obtain ⟨n, mn, ⟨-, hn⟩, n1⟩ := h.num
  refine ⟨?_, ?_, ?_, ?_, ?_⟩
  · rintro k vs rfl hk
    rw [hs k vs hws hk]
    exact mapM_two s1.read s2.read
  · rintro k vs rfl hk
    rw [hp k vs hws hk]
    exact mapM_two p1.read p2.read
  · rintro k vs rfl hk
    rw [ho k vs hws hk]
    exact mapM_two o1.read o2.read
  · rintro k vs rfl hk
    exact h.fields.2 k vs hws hk
  · rintro k vs rfl hk
    exact ⟨n, mn, hn k vs hws hk, n1.read⟩

/-- One line: it sets what it says. -/
theorem headLine_agrees {v : Values} {ws : List Text} {l : Text} (hne : ws ≠ []) (hw : words l = ws) (ha : Agrees ws v) (h : Gmx.Head) :
    ∃ h', headLine h l = .ok h' ∧ (Keyed "SHAPE" ws → h'.shape = (parsed v).shape) ∧ (Keyed "SPACING" ws → h'.spacing = (parsed v).spacing) ∧
      (Keyed "ORIGIN" ws → h'.origin = (parsed v).origin) ∧ (Keyed "FIELDS" ws → h'.fields = (parsed v).fields) ∧ (Keyed "NUMDATA" ws → h'.num = (parsed v).num) := by
  cases ws with
  | nil => exact absurd rfl hne
  | cons w vs =>
    have other : ∀ {key key' : String}, upper w = key.toList → key ≠ key' → ¬ Keyed key' (w :: vs) := by
      rintro key key' h1 h2 ⟨k, vs', e, h3⟩
      obtain ⟨rfl, rfl⟩ := List.cons.inj e
      exact h2 (String.toList_injective (h1.symm.trans h3))
    unfold headLine
    rw [hw]
    simp only
    by_cases k1 : upper w = "SHAPE".toList
    · rw [if_pos k1, ha.shape w vs rfl k1]
      exact ⟨_, rfl, fun _ => rfl, fun h => absurd h (other k1 (by decide)), fun h => absurd h (other k1 (by decide)), fun h => absurd h (other k1 (by decide)), fun h => absurd h (other k1 (by decide))⟩
    rw [if_neg k1]
    by_cases k2 : upper w = "SPACING".toList
    · rw [if_pos k2, ha.spacing w vs rfl k2]
      exact ⟨_, rfl, fun h => absurd h (other k2 (by decide)), fun _ => rfl, fun h => absurd h (other k2 (by decide)), fun h => absurd h (other k2 (by decide)), fun h => absurd h (other k2 (by decide))⟩
    rw [if_neg k2]
    by_cases k3 : upper w = "ORIGIN".toList
    · rw [if_pos k3, ha.origin w vs rfl k3]
      exact ⟨_, rfl, fun h => absurd h (other k3 (by decide)), fun h => absurd h (other k3 (by decide)), fun _ => rfl, fun h => absurd h (other k3 (by decide)), fun h => absurd h (other k3 (by decide))⟩
    rw [if_neg k3]
    by_cases k4 : upper w = "FIELDS".toList
    · rw [if_pos k4]
      exact ⟨_, rfl, fun h => absurd h (other k4 (by decide)), fun h => absurd h (other k4 (by decide)), fun h => absurd h (other k4 (by decide)),
        fun _ => congrArg some (ha.fields w vs rfl k4), fun h => absurd h (other k4 (by decide))⟩
    rw [if_neg k4]
    by_cases k5 : upper w = "NUMDATA".toList
    · obtain ⟨a, more, rfl, hn⟩ := ha.num w vs rfl k5
      rw [if_pos k5]
      simp only
      rw [hn]
      exact ⟨_, rfl, fun h => absurd h (other k5 (by decide)), fun h => absurd h (other k5 (by decide)), fun h => absurd h (other k5 (by decide)), fun h => absurd h (other k5 (by decide)), fun _ => rfl⟩
    rw [if_neg k5]
    have no : ∀ key : String, upper w ≠ key.toList → ¬ Keyed key (w :: vs) := by
      rintro key h1 ⟨k, vs', e, h3⟩
      obtain ⟨rfl, rfl⟩ := List.cons.inj e
      exact h1 h3
    exact ⟨_, rfl, fun h => absurd h (no _ k1), fun h => absurd h (no _ k2), fun h => absurd h (no _ k3), fun h => absurd h (no _ k4), fun h => absurd h (no _ k5)⟩

theorem headLines_agree {v : Values} : ∀ (lines : List (List Text)) (ls : List Text), List.Forall₂ (fun ws l => words l = ws) lines ls → (∀ ws ∈ lines, ws ≠ []) →
    (∀ ws ∈ lines, Agrees ws v) → ∀ h : Gmx.Head, ∃ h', ls.foldlM headLine h = .ok h' ∧
      ((h.shape = (parsed v).shape ∨ ∃ ws ∈ lines, Keyed "SHAPE" ws) → h'.shape = (parsed v).shape) ∧
      ((h.spacing = (parsed v).spacing ∨ ∃ ws ∈ lines, Keyed "SPACING" ws) → h'.spacing = (parsed v).spacing) ∧
      ((h.origin = (parsed v).origin ∨ ∃ ws ∈ lines, Keyed "ORIGIN" ws) → h'.origin = (parsed v).origin) ∧
      ((h.fields = (parsed v).fields ∨ ∃ ws ∈ lines, Keyed "FIELDS" ws) → h'.fields = (parsed v).fields) ∧
      ((h.num = (parsed v).num ∨ ∃ ws ∈ lines, Keyed "NUMDATA" ws) → h'.num = (parsed v).num) := by
  intro lines ls hl
  induction hl with
  | nil =>
    intro _ _ h
    refine ⟨h, rfl, ?_, ?_, ?_, ?_, ?_⟩ <;>
    · rintro (e | ⟨ws, hws, -⟩)
      · exact e
      · cases hws
  | cons hw _ ih =>
    rename_i ws l lines ls _
    intro hne ha h
    obtain ⟨m, hm, m1, m2, m3, m4, m5⟩ := headLine_agrees (hne ws (by simp)) hw (ha ws (by simp)) h
    obtain ⟨k1, k2, k3, k4, k5⟩ := headLine_keeps hm
    rw [hw] at k1 k2 k3 k4 k5
    obtain ⟨h', hf, f1, f2, f3, f4, f5⟩ := ih (fun ws h => hne ws (by simp [h])) (fun ws h => ha ws (by simp [h])) m
    refine ⟨h', by rw [foldlM_ok hm]; exact hf, ?_, ?_, ?_, ?_, ?_⟩
    · rintro (e | ⟨u, hu, hk⟩)
      · refine f1 (Or.inl ?_)
        by_cases hk : Keyed "SHAPE" ws
        · exact m1 hk
        · rw [k1 hk, e]
      · rcases List.mem_cons.mp hu with rfl | hu
        · exact f1 (Or.inl (m1 hk))
        · exact f1 (Or.inr ⟨u, hu, hk⟩)
    · rintro (e | ⟨u, hu, hk⟩)
      · refine f2 (Or.inl ?_)
        by_cases hk : Keyed "SPACING" ws
        · exact m2 hk
        · rw [k2 hk, e]
      · rcases List.mem_cons.mp hu with rfl | hu
        · exact f2 (Or.inl (m2 hk))
        · exact f2 (Or.inr ⟨u, hu, hk⟩)
    · rintro (e | ⟨u, hu, hk⟩)
      · refine f3 (Or.inl ?_)
        by_cases hk : Keyed "ORIGIN" ws
        · exact m3 hk
        · rw [k3 hk, e]
      · rcases List.mem_cons.mp hu with rfl | hu
        · exact f3 (Or.inl (m3 hk))
        · exact f3 (Or.inr ⟨u, hu, hk⟩)
    · rintro (e | ⟨u, hu, hk⟩)
      · refine f4 (Or.inl ?_)
        by_cases hk : Keyed "FIELDS" ws
        · exact m4 hk
        · rw [k4 hk, e]
      · rcases List.mem_cons.mp hu with rfl | hu
        · exact f4 (Or.inl (m4 hk))
        · exact f4 (Or.inr ⟨u, hu, hk⟩)
    · rintro (e | ⟨u, hu, hk⟩)
      · refine f5 (Or.inl ?_)
        by_cases hk : Keyed "NUMDATA" ws
        · exact m5 hk
        · rw [k5 hk, e]
      · rcases List.mem_cons.mp hu with rfl | hu
        · exact f5 (Or.inl (m5 hk))
        · exact f5 (Or.inr ⟨u, hu, hk⟩)

/-! ## The text of a header -/

theorem headerText_lines {lines : List (List Text)} {s : Text} (h : HeaderText lines s) :
    List.Forall₂ (fun ws l => words l = ws) lines (splitlines s) ∧ ∀ c ∈ s, 0 < c.toNat ∧ c.toNat < 128 := by
  obtain ⟨hp, ls, hl, he⟩ := h
  have hchars : ∀ l ∈ ls, ∀ c ∈ l, (32 ≤ c.toNat ∧ c.toNat ≤ 126) ∨ c = '\t' := by
    clear he
    induction hl with
    | nil => simp
    | cons h _ ih =>
      intro l hl
      rcases List.mem_cons.mp hl with rfl | hl
      · exact printed_chars h (hp _ (by simp)).2
      · exact ih (fun ws h => hp ws (by simp [h])) l hl
  constructor
  · rw [splitlines_ended he fun l hl c hc => (noBreak_of (hchars l hl c hc)).1]
    clear he hchars
    induction hl with
    | nil => exact .nil
    | cons h _ ih => exact .cons (words_printed h (hp _ (by simp)).2).1 (ih fun ws h => hp ws (by simp [h]))
  · clear hl hp
    have pos : ∀ c : Char, ((32 ≤ c.toNat ∧ c.toNat ≤ 126) ∨ c = '\t') → 0 < c.toNat ∧ c.toNat < 128 := by
      rintro c (h | rfl)
      · omega
      · decide
    induction he with
    | nothing => simp
    | unended l _ => exact fun c hc => pos c (hchars l (by simp) c hc)
    | lf l ls s _ ih =>
      intro c h
      simp only [List.mem_append, List.mem_cons] at h
      rcases h with h | rfl | h
      · exact pos c (hchars l (by simp) c h)
      · decide
      · exact ih (fun l hl => hchars l (by simp [hl])) c h
    | crlf l ls s _ ih =>
      intro c h
      simp only [List.mem_append, List.mem_cons] at h
      rcases h with h | rfl | rfl | h
      · exact pos c (hchars l (by simp) c h)
      · decide
      · decide
      · exact ih (fun l hl => hchars l (by simp [hl])) c h

/-- The reader's way to the data: the text of the header is read, whatever it is. -/
theorem readHeader_text (s : Text) (data : Bytes) (hs : ∀ c ∈ s, 0 < c.toNat ∧ c.toNat < 128) (hb : LongEnough s data) :
    readHeader (ascii s ++ 0 :: data) = (do
      let h ← (splitlines s).foldlM headLine {}
      match h.shape with
      | none => .error .keyError
      | some [_, _] =>
        match h.fields, h.num with
        | some _, some _ => .ok (h, ⟨ascii s ++ 0 :: data, (ascii s ++ [0]).length⟩)
        | _, _ => .error .unboundLocalError
      | some _ => .error .indexError) := by
  have hlen : (ascii s ++ 0 :: data).length = s.length + 1 + data.length := by
    simp [ascii]; omega
  have hrd := readHeaderString_nul ((ascii s ++ 0 :: data).length / 1024 + 1) [] s data hs
    (by rw [hlen]; have := Nat.div_le_div_right (c := 1024) (show s.length ≤ s.length + 1 + data.length by omega); omega)
  unfold readHeader
  simp only [List.nil_append, List.length_nil, Nat.zero_add] at hrd
  unfold LongEnough at hb
  rw [hrd, Nat.min_eq_left hb]
  unfold File.back
  simp only
  rw [if_pos (by omega)]
  have hp : 1024 * (s.length / 1024 + 1) - (1023 - s.length % 1024) = (ascii s ++ [0]).length := by
    simp only [ascii, List.length_append, List.length_map, List.length_singleton]; omega
  rw [hp]
  rfl

theorem fromFile_pre (w n : ℕ) (pre data : Bytes) (p : ℕ) : fromFile w n ⟨pre ++ data, pre.length + p⟩ =
    ((fromFile w n ⟨data, p⟩).1, ⟨pre ++ data, pre.length + (fromFile w n ⟨data, p⟩).2.pos⟩) ∧ (fromFile w n ⟨data, p⟩).2.content = data := by
  unfold fromFile
  have hd : (pre ++ data).drop (pre.length + p) = data.drop p := by rw [List.drop_append, List.drop_of_length_le (by omega)]; simp
  have hl : (pre ++ data).length - (pre.length + p) = data.length - p := by rw [List.length_append]; omega
  simp only [hd, hl]
  by_cases h : n * w ≤ data.length - p
  · rw [if_pos h, if_pos h]
    exact ⟨by simp [Nat.add_assoc], rfl⟩
  · rw [if_neg h, if_neg h]
    exact ⟨by simp, rfl⟩

/-- The data are read in the same way wherever they begin. -/
theorem readValues_pre (F : F32) (num : ℤ) (pre data : Bytes) : ∀ (fs : List Text) (p : ℕ),
    readValues F ⟨pre ++ data, pre.length + p⟩ num fs = readValues F ⟨data, p⟩ num fs := by
  intro fs
  induction fs with
  | nil => intro p; rfl
  | cons l fs ih =>
    intro p
    unfold readValues
    have e : ∀ w n, (fromFile w n ⟨data, p⟩).2 = ⟨data, (fromFile w n ⟨data, p⟩).2.pos⟩ := by
      intro w n
      rw [File.mk.injEq]
      exact ⟨(fromFile_pre w n pre data p).2, rfl⟩
    by_cases h1 : num < 0
    · rw [if_pos h1, if_pos h1]
    rw [if_neg h1, if_neg h1]
    by_cases h2 : l = "IX".toList ∨ l = "IY".toList
    · rw [if_pos h2, if_pos h2, (fromFile_pre 8 num.toNat pre data p).1]
      simp only
      rw [ih, ← e]
    rw [if_neg h2, if_neg h2]
    by_cases h3 : l ∈ fieldsOrdered.map String.toList
    · rw [if_pos h3, if_pos h3, (fromFile_pre 4 num.toNat pre data p).1]
      simp only
      rw [ih, ← e]
    rw [if_neg h3, if_neg h3]

theorem readValues_data (F : F32) (num : ℤ) (s : Text) (data : Bytes) (fs : List Text) :
    readValues F ⟨ascii s ++ 0 :: data, (ascii s ++ [0]).length⟩ num fs = readValues F ⟨data, 0⟩ num fs := by
  have := readValues_pre F num (ascii s ++ [0]) data fs 0
  rw [Nat.add_zero, List.append_assoc] at this
  exact this

theorem readHeader_gives {lines : List (List Text)} {s : Text} {v : Values} (ht : HeaderText lines s) (hv : Gives lines v) (data : Bytes) (hb : LongEnough s data) :
    readHeader (ascii s ++ 0 :: data) = .ok (parsed v, ⟨ascii s ++ 0 :: data, (ascii s ++ [0]).length⟩) := by
  obtain ⟨hl, hs⟩ := headerText_lines ht
  have keyed : ∀ {key : String} {vs : List Text}, Says lines key vs → ∃ ws ∈ lines, Keyed key ws := by
    rintro key vs ⟨⟨k, hk, hm⟩, -⟩
    exact ⟨_, hm, k, vs, rfl, hk⟩
  obtain ⟨h', hf, f1, f2, f3, f4, f5⟩ := headLines_agree lines _ hl (fun ws h => (ht.1 ws h).1) hv.agrees {}
  obtain ⟨_, _, _, s1, -⟩ := hv.shape
  obtain ⟨_, _, _, s2, -⟩ := hv.spacing
  obtain ⟨_, _, _, s3, -⟩ := hv.origin
  obtain ⟨_, _, s5, -⟩ := hv.num
  have e : h' = parsed v := by
    have g1 := f1 (Or.inr (keyed s1))
    have g2 := f2 (Or.inr (keyed s2))
    have g3 := f3 (Or.inr (keyed s3))
    have g4 := f4 (Or.inr (keyed hv.fields))
    have g5 := f5 (Or.inr (keyed s5))
    obtain ⟨a, b, c, d, e⟩ := h'
    simp only at g1 g2 g3 g4 g5
    subst g1 g2 g3 g4 g5
    rfl
  rw [readHeader_text s data hs hb, hf, e]
  rfl

/-! ## C145 -/

/-- **C145.** The header of a binary map may be laid out in any way: its lines in any order and repeated, the keys in capital letters or not, other lines
between them, any blanks and tabs, line ends with or without a carriage return.  Two files with headers that give the same values, and with the same data,
are read the same (or both refused); the header may have any length, as long as the file reaches to the end of the block of 1024 bytes in which its header ends. -/
theorem C145_any_layout (F : F32) (lines lines' : List (List Text)) (s s' : Text) (v : Values) (ht : HeaderText lines s) (ht' : HeaderText lines' s')
    (hv : Gives lines v) (hv' : Gives lines' v) (data : Bytes) (hb : LongEnough s data) (hb' : LongEnough s' data) :
    Gmx.readData F (ascii s ++ 0 :: data) = Gmx.readData F (ascii s' ++ 0 :: data) := by
  unfold Gmx.readData
  rw [readHeader_gives ht hv data hb, readHeader_gives ht' hv' data hb', ok_bind, ok_bind]
  simp only
  rw [readValues_data, readValues_data]

/-- **C145, as written.** A file with a header made by hand in any layout is read as the file the program would have written with these values (six decimals of
the spacing and the origin are written) and the same data. -/
theorem C145_as_written (F : F32) (lines : List (List Text)) (s : Text) (i : GInfo) (num : ℕ) (ht : HeaderText lines s)
    (hv : Gives lines ⟨((i.shape.1 : ℤ), (i.shape.2 : ℤ)), (round6 i.spacing.1, round6 i.spacing.2), (round6 i.origin.1, round6 i.origin.2),
      ["IX".toList, "IY".toList, "N".toList, "T".toList, "M".toList, "U".toList, "V".toList], (num : ℤ)⟩)
    (data : Bytes) (hb : LongEnough s data) (hb' : LongEnough (headerText i num) data) :
    Gmx.readData F (ascii s ++ 0 :: data) = Gmx.readData F (header i num ++ data) := by
  have hw : header i num ++ data = ascii (headerText i num) ++ 0 :: data := by simp [header]
  unfold Gmx.readData
  rw [readHeader_gives ht hv data hb, readHeader_header i num data (by
    unfold LongEnough at hb'
    have hlen : (header i num ++ data).length = (headerText i num).length + 1 + data.length := by
      simp [header, ascii]; omega
    rw [hlen]; exact hb'), ok_bind, ok_bind]
  simp only
  rw [readValues_data, hw, show (header i num).length = (ascii (headerText i num) ++ [0]).length from rfl, readValues_data]
  rfl

/-- **C145, the grid.** The grid of a map that is read is the one given by its header, bin after bin: columns along x, `num_bins` bins in all. -/
theorem C145_grid (F : F32) (lines : List (List Text)) (s : Text) (v : Values) (ht : HeaderText lines s) (hv : Gives lines v) (data : Bytes) (hb : LongEnough s data)
    (r : Record) (info : Info) (h : Gmx.readData F (ascii s ++ 0 :: data) = .ok (r, info)) :
    0 ≤ v.shape.1 ∧ 0 ≤ v.shape.2 ∧ info.shape = some v.shape ∧ info.spacing = some v.spacing ∧ info.origin = some v.origin ∧ info.numBins = some (v.shape.1 * v.shape.2) ∧
      ∀ i j : ℕ, (i : ℤ) < v.shape.1 → (j : ℤ) < v.shape.2 → val r "X" (i * v.shape.2.toNat + j) = v.origin.1 + v.spacing.1 * ((i : ℚ) + 1 / 2) ∧
        val r "Y" (i * v.shape.2.toNat + j) = v.origin.2 + v.spacing.2 * ((j : ℚ) + 1 / 2) := by
  unfold Gmx.readData at h
  rw [readHeader_gives ht hv data hb, ok_bind] at h
  obtain ⟨d, -, h⟩ := Simple.bind_eq_ok h
  simp only [parsed] at h
  by_cases hn : v.shape.1 < 0 ∨ v.shape.2 < 0
  · rw [if_pos hn] at h; cases h
  rw [if_neg hn] at h
  obtain ⟨cols, -, h⟩ := Simple.bind_eq_ok h
  obtain ⟨rfl, rfl⟩ := Prod.mk.inj (Except.ok.inj h)
  rw [not_or, not_lt, not_lt] at hn
  refine ⟨hn.1, hn.2, rfl, rfl, rfl, rfl, ?_⟩
  intro i j hi hj
  have hj' : j < v.shape.2.toNat := by omega
  have hi' : i < v.shape.1.toNat := by omega
  have hlt : i * v.shape.2.toNat + j < v.shape.1.toNat * v.shape.2.toNat := by
    have := grid_lt (nx := v.shape.2.toNat) (ny := v.shape.1.toNat) hj' hi'
    rwa [Nat.mul_comm v.shape.2.toNat] at this
  constructor
  · rw [val_of_col (show col? _ "X" = some _ from rfl), getD_map_range _ _ _ hlt, grid_div hj']
  · rw [val_of_col (show col? _ "Y" = some _ from rfl), getD_map_range _ _ _ hlt, grid_mod hj']

/-- **C145, missing entries.** A header without a line for the shape, the spacing, the origin, the fields or the number of bins is refused. -/
theorem C145_missing (F : F32) (lines : List (List Text)) (s : Text) (ht : HeaderText lines s) (data : Bytes) (hb : LongEnough s data) (key : String)
    (hk : key ∈ ["SHAPE", "SPACING", "ORIGIN", "FIELDS", "NUMDATA"]) (hn : ∀ ws ∈ lines, ¬ Keyed key ws) : ∃ e, Gmx.readData F (ascii s ++ 0 :: data) = .error e := by
  obtain ⟨hl, hs⟩ := headerText_lines ht
  have hn' : ∀ l ∈ splitlines s, ¬ Keyed key (words l) := by
    clear hs hb
    generalize splitlines s = ls at hl
    clear ht
    induction hl with
    | nil => simp
    | cons hw _ ih =>
      intro l hl
      rcases List.mem_cons.mp hl with rfl | hl
      · rw [hw]; exact hn _ (by simp)
      · exact ih (fun ws h => hn ws (by simp [h])) l hl
  unfold Gmx.readData
  rw [readHeader_text s data hs hb]
  cases hf : (splitlines s).foldlM headLine {} with
  | error e => exact ⟨e, rfl⟩
  | ok h =>
    obtain ⟨g1, g2, g3, g4, g5⟩ := headLines_keeps _ _ _ hf
    rw [ok_bind]
    obtain ⟨sh, sp, og, fi, nu⟩ := h
    simp only at g1 g2 g3 g4 g5 ⊢
    simp only [List.mem_cons, List.not_mem_nil, or_false] at hk
    have fin : ∀ a b c d, (sp = none ∨ og = none) → ∃ e, ((readValues F ⟨ascii s ++ 0 :: data, (ascii s ++ [0]).length⟩ a b) >>= fun d' =>
        (match og, some [c, d], sp with
        | some [x0, y0], some [nx, ny], some [dx, dy] =>
          if nx < 0 ∨ ny < 0 then (.error .valueError : Except Err (Record × Info))
          else do
            let nx' := nx.toNat
            let ny' := ny.toNat
            let cols ← fieldsOrdered.mapM (fieldCol nx' ny' d')
            .ok ([("X", (List.range (nx' * ny')).map fun t => x0 + dx * (((t / ny' : ℕ) : ℚ) + 1 / 2)),
                  ("Y", (List.range (nx' * ny')).map fun t => y0 + dy * (((t % ny' : ℕ) : ℚ) + 1 / 2))] ++ cols,
              { shape := some (nx, ny), origin := some (x0, y0), spacing := some (dx, dy), numBins := some (nx * ny) })
        | none, _, _ => .error .keyError
        | _, _, none => .error .keyError
        | _, _, _ => .error .valueError)) = .error e := by
      intro a b c d hh
      generalize readValues F ⟨ascii s ++ 0 :: data, (ascii s ++ [0]).length⟩ a b = x
      cases x with
      | error e => exact ⟨e, rfl⟩
      | ok x =>
        rw [ok_bind]
        rcases hh with rfl | rfl
        · rcases og with _ | (_ | ⟨x0, _ | ⟨y0, _ | ⟨z0, og⟩⟩⟩) <;> exact ⟨_, rfl⟩
        · exact ⟨_, rfl⟩
    rcases hk with rfl | rfl | rfl | rfl | rfl
    · rw [g1 hn']; exact ⟨_, rfl⟩
    · rcases sh with _ | (_ | ⟨a, _ | ⟨b, _ | ⟨c, sh⟩⟩⟩) <;> try exact ⟨_, rfl⟩
      rcases fi with _ | fi <;> rcases nu with _ | nu <;> try exact ⟨_, rfl⟩
      exact fin _ _ _ _ (Or.inl (g2 hn'))
    · rcases sh with _ | (_ | ⟨a, _ | ⟨b, _ | ⟨c, sh⟩⟩⟩) <;> try exact ⟨_, rfl⟩
      rcases fi with _ | fi <;> rcases nu with _ | nu <;> try exact ⟨_, rfl⟩
      exact fin _ _ _ _ (Or.inr (g3 hn'))
    · rw [g4 hn']
      rcases sh with _ | (_ | ⟨a, _ | ⟨b, _ | ⟨c, sh⟩⟩⟩) <;> exact ⟨_, rfl⟩
    · rw [g5 hn']
      rcases sh with _ | (_ | ⟨a, _ | ⟨b, _ | ⟨c, sh⟩⟩⟩) <;> try exact ⟨_, rfl⟩
      rcases fi with _ | fi <;> exact ⟨_, rfl⟩

theorem digits_none {w : Text} (hw : ∀ c ∈ w, c.isDigit = false) (hne : w ≠ []) (a : ℕ) : digits? a w = none := by
  cases w with
  | nil => exact absurd rfl hne
  | cons c w =>
    unfold digits?
    rw [if_neg (by rw [hw c (by simp)]; simp)]

theorem signOf_mem (w : Text) : ∀ c ∈ (signOf w).2, c ∈ w := by
  unfold signOf
  split
  · intro c hc; exact List.mem_cons_of_mem _ hc
  · intro c hc; exact List.mem_cons_of_mem _ hc
  · exact fun c hc => hc

theorem pyFloat_noNumber {w : Text} (hw : NoNumber w) : pyFloat w = .error .valueError := by
  unfold pyFloat
  have hs := signOf_mem w
  generalize signOf w = g at hs
  obtain ⟨sg, s⟩ := g
  simp only at hs ⊢
  by_cases he : s.takeWhile (· ≠ '.') ++ (s.dropWhile (· ≠ '.')).drop 1 = []
  · rw [if_pos he]
  · rw [if_neg he, digits_none _ he]
    intro c hc
    apply hw.1 c (hs c _)
    rcases List.mem_append.mp hc with h | h
    · exact (List.takeWhile_sublist _).mem h
    · exact (List.dropWhile_sublist _).mem (List.mem_of_mem_drop h)

theorem pyInt_noNumber {w : Text} (hw : NoNumber w) : PyText.pyInt w = .error .valueError := by
  unfold PyText.pyInt
  have hs := signOf_mem w
  generalize signOf w = g at hs
  obtain ⟨sg, s⟩ := g
  simp only at hs ⊢
  by_cases he : s = []
  · rw [if_pos he]
  · rw [if_neg he, digits_none (fun c hc => hw.1 c (hs c hc)) he]

theorem mapM_fails {α β : Type} (f : α → Except Err β) : ∀ (l : List α) (a : α), a ∈ l → (∃ e, f a = .error e) → ∃ e, l.mapM f = .error e := by
  intro l
  induction l with
  | nil => intro a ha; cases ha
  | cons b l ih =>
    intro a ha he
    rw [List.mapM_cons]
    cases hb : f b with
    | error e => exact ⟨e, rfl⟩
    | ok b' =>
      rcases List.mem_cons.mp ha with rfl | ha
      · obtain ⟨e, he⟩ := he
        rw [he] at hb; cases hb
      · obtain ⟨e, he⟩ := ih a ha he
        rw [he]
        exact ⟨e, rfl⟩

theorem foldlM_fails (f : Gmx.Head → Text → Except Err Gmx.Head) : ∀ (ls : List Text) (l : Text), l ∈ ls → (∀ h, ∃ e, f h l = .error e) → ∀ h, ∃ e, ls.foldlM f h = .error e := by
  intro ls
  induction ls with
  | nil => intro l hl; cases hl
  | cons a ls ih =>
    intro l hl hf h
    rw [List.foldlM_cons]
    rcases List.mem_cons.mp hl with rfl | hl
    · obtain ⟨e, he⟩ := hf h
      rw [he]; exact ⟨e, rfl⟩
    · cases f h a with
      | error e => exact ⟨e, rfl⟩
      | ok h' => exact ih l hl hf h'

/-- **C145, no number.** A file is refused if one of the two values of the shape, the spacing or the origin, or the number of bins, has no digit. -/
theorem C145_no_number (F : F32) (lines : List (List Text)) (s : Text) (ht : HeaderText lines s) (data : Bytes) (hb : LongEnough s data) (k w : Text) (vs : List Text)
    (hm : k :: vs ∈ lines) (hw : NoNumber w) (hk : ((∃ key ∈ ["SHAPE", "SPACING", "ORIGIN"], k.map Char.toUpper = key.toList) ∧ w ∈ vs.take 2) ∨
      (k.map Char.toUpper = "NUMDATA".toList ∧ vs.head? = some w)) : ∃ e, Gmx.readData F (ascii s ++ 0 :: data) = .error e := by
  obtain ⟨hl, hs⟩ := headerText_lines ht
  obtain ⟨l, hlm, hlw⟩ : ∃ l ∈ splitlines s, words l = k :: vs := by
    clear hs hb ht
    generalize splitlines s = ls at hl
    induction hl with
    | nil => cases hm
    | cons h _ ih =>
      rcases List.mem_cons.mp hm with rfl | hm
      · exact ⟨_, by simp, h⟩
      · obtain ⟨l, h1, h2⟩ := ih hm
        exact ⟨l, List.mem_cons_of_mem _ h1, h2⟩
  have hfail : ∀ h, ∃ e, headLine h l = .error e := by
    intro h
    unfold headLine
    rw [hlw]
    simp only
    unfold upper
    rcases hk with ⟨⟨key, hkey, e⟩, hw2⟩ | ⟨e, hv⟩
    · rw [e]
      simp only [List.mem_cons, List.not_mem_nil, or_false] at hkey
      rcases hkey with rfl | rfl | rfl
      · rw [if_pos rfl]
        obtain ⟨x, hx⟩ := mapM_fails PyText.pyInt _ w hw2 ⟨_, pyInt_noNumber hw⟩
        rw [hx]; exact ⟨_, rfl⟩
      · rw [if_neg (by decide), if_pos rfl]
        obtain ⟨x, hx⟩ := mapM_fails pyFloat _ w hw2 ⟨_, pyFloat_noNumber hw⟩
        rw [hx]; exact ⟨_, rfl⟩
      · rw [if_neg (by decide), if_neg (by decide), if_pos rfl]
        obtain ⟨x, hx⟩ := mapM_fails pyFloat _ w hw2 ⟨_, pyFloat_noNumber hw⟩
        rw [hx]; exact ⟨_, rfl⟩
    · rw [e, if_neg (by decide), if_neg (by decide), if_neg (by decide), if_neg (by decide), if_pos rfl]
      cases vs with
      | nil => cases hv
      | cons v vs =>
        have := Option.some.inj hv
        subst this
        simp only
        rw [pyInt_noNumber hw]
        exact ⟨_, rfl⟩
  obtain ⟨e, he⟩ := foldlM_fails headLine _ l hlm hfail {}
  unfold Gmx.readData
  rw [readHeader_text s data hs hb, he]
  exact ⟨e, rfl⟩

/-- Words without a digit. -/
example : NoNumber "-.".toList ∧ NoNumber "two".toList ∧ ¬ NoNumber "-inf".toList ∧ ¬ NoNumber "1x".toList := by
  unfold NoNumber; decide

/-- **C145 (counterexample).** An empty line in the header is not skipped: the file is refused, wherever the line is. -/
theorem C145_empty_line_counterexample (F : F32) (ls : List Text) (s : Text) (he : Ended ls s) (hr : ∀ l ∈ ls, Remark l) (p : Text) (hp : Blank p) (hm : p ∈ ls)
    (data : Bytes) (hb : LongEnough s data) : ∃ e, Gmx.readData F (ascii s ++ 0 :: data) = .error e := by
  have pos : ∀ c : Char, ((32 ≤ c.toNat ∧ c.toNat ≤ 126) ∨ c = '\t') → 0 < c.toNat ∧ c.toNat < 128 := by
    rintro c (h | rfl)
    · omega
    · decide
  have hs : ∀ c ∈ s, 0 < c.toNat ∧ c.toNat < 128 := by
    clear hb hm hp
    induction he with
    | nothing => simp
    | unended l _ => exact fun c hc => pos c (hr l (by simp) c hc)
    | lf l ls s _ ih =>
      intro c h
      simp only [List.mem_append, List.mem_cons] at h
      rcases h with h | rfl | h
      · exact pos c (hr l (by simp) c h)
      · decide
      · exact ih (fun l hl => hr l (by simp [hl])) c h
    | crlf l ls s _ ih =>
      intro c h
      simp only [List.mem_append, List.mem_cons] at h
      rcases h with h | rfl | rfl | h
      · exact pos c (hr l (by simp) c h)
      · decide
      · decide
      · exact ih (fun l hl => hr l (by simp [hl])) c h
  have hw : words p = [] := by have := words_blank p [] hp; rw [List.append_nil] at this; rw [this]; rfl
  have hfold : ∀ (ls : List Text), p ∈ ls → ∀ h : Gmx.Head, ∃ e, ls.foldlM headLine h = .error e := by
    intro ls
    induction ls with
    | nil => intro h; cases h
    | cons l ls ih =>
      intro hm h
      rw [List.foldlM_cons]
      cases hl : headLine h l with
      | error e => exact ⟨e, rfl⟩
      | ok h' =>
        rcases List.mem_cons.mp hm with rfl | hm
        · unfold headLine at hl; rw [hw] at hl; cases hl
        · exact ih hm h'
  obtain ⟨e, he'⟩ := hfold ls hm {}
  refine ⟨e, ?_⟩
  unfold Gmx.readData
  rw [readHeader_text s data hs hb, splitlines_ended he fun l hl c hc => (noBreak_of (hr l hl c hc)).1, he']
  rfl

/-- **C145, negative shapes.** A header with a negative number of columns or rows is refused. -/
theorem C145_negative (F : F32) (lines : List (List Text)) (s : Text) (v : Values) (ht : HeaderText lines s) (hv : Gives lines v) (data : Bytes) (hb : LongEnough s data)
    (hn : v.shape.1 < 0 ∨ v.shape.2 < 0) : ∃ e, Gmx.readData F (ascii s ++ 0 :: data) = .error e := by
  cases h : Gmx.readData F (ascii s ++ 0 :: data) with
  | error e => exact ⟨e, rfl⟩
  | ok r =>
    obtain ⟨r, info⟩ := r
    obtain ⟨h1, h2, -⟩ := C145_grid F lines s v ht hv data hb r info h
    omega

/-! ## Examples -/

/-- The words of a header written by hand. -/
def handLines : List (List Text) := [["format".toList, "GMX_FLOW_1".toList], ["Fields".toList, "IX".toList, "IY".toList, "N".toList, "T".toList, "M".toList, "U".toList, "V".toList],
  ["#".toList, "made".toList, "by".toList, "hand".toList], ["numdata".toList, "0".toList], ["Shape".toList, "2".toList, "3".toList, "bins".toList], ["ORIGIN".toList, "0.5".toList, "-1".toList],
  ["spacing".toList, "0.25".toList, "+.5".toList]]

/-- The header. -/
def handHeader : Text := "format GMX_FLOW_1\nFields IX\tIY N T M U V\n # made by hand\nnumdata 0\r\nShape 2  3 bins\n\tORIGIN 0.5 -1\nspacing 0.25 +.5".toList

/-- The values it gives. -/
def handValues : Values := ⟨(2, 3), (1 / 4, 1 / 2), (1 / 2, -1), ["IX".toList, "IY".toList, "N".toList, "T".toList, "M".toList, "U".toList, "V".toList], 0⟩

instance (w : Text) : Decidable (Printed w) := inferInstanceAs (Decidable (w ≠ [] ∧ ∀ c ∈ w, 33 ≤ c.toNat ∧ c.toNat ≤ 126))

theorem hand_header : HeaderText handLines handHeader := by
  refine ⟨by decide +kernel, ["format GMX_FLOW_1".toList, "Fields IX\tIY N T M U V".toList, " # made by hand".toList, "numdata 0".toList, "Shape 2  3 bins".toList, "\tORIGIN 0.5 -1".toList,
    "spacing 0.25 +.5".toList], ?_, ?_⟩
  · refine .cons ?_ (.cons ?_ (.cons ?_ (.cons ?_ (.cons ?_ (.cons ?_ (.cons ?_ .nil))))))
    · exact .next [] "format".toList ' ' _ _ (by decide) (by decide) (.last [] _ (by decide))
    · exact .next [] "Fields".toList ' ' _ _ (by decide) (by decide) (.next [] "IX".toList '\t' _ _ (by decide) (by decide) (.next [] "IY".toList ' ' _ _ (by decide) (by decide)
        (.next [] "N".toList ' ' _ _ (by decide) (by decide) (.next [] "T".toList ' ' _ _ (by decide) (by decide) (.next [] "M".toList ' ' _ _ (by decide) (by decide)
          (.next [] "U".toList ' ' _ _ (by decide) (by decide) (.last [] _ (by decide))))))))
    · exact .next [' '] "#".toList ' ' _ _ (by decide) (by decide) (.next [] "made".toList ' ' _ _ (by decide) (by decide) (.next [] "by".toList ' ' _ _ (by decide) (by decide) (.last [] _ (by decide))))
    · exact .next [] "numdata".toList ' ' _ _ (by decide) (by decide) (.last [] _ (by decide))
    · exact .next [] "Shape".toList ' ' _ _ (by decide) (by decide) (.next [] "2".toList ' ' _ _ (by decide) (by decide) (.next [' '] "3".toList ' ' _ _ (by decide) (by decide) (.last [] _ (by decide))))
    · exact .next ['\t'] "ORIGIN".toList ' ' _ _ (by decide) (by decide) (.next [] "0.5".toList ' ' _ _ (by decide) (by decide) (.last [] _ (by decide)))
    · exact .next [] "spacing".toList ' ' _ _ (by decide) (by decide) (.next [] "0.25".toList ' ' _ _ (by decide) (by decide) (.last [] _ (by decide)))
  · exact .lf "format GMX_FLOW_1".toList _ _ (.lf "Fields IX\tIY N T M U V".toList _ _ (.lf " # made by hand".toList _ _ (.crlf "numdata 0".toList _ _ (.lf "Shape 2  3 bins".toList _ _
      (.lf "\tORIGIN 0.5 -1".toList _ _ (.unended "spacing 0.25 +.5".toList (by decide)))))))

theorem says_of {lines : List (List Text)} {key : String} {vs : List Text} (h1 : lines.any (fun ws => decide (∃ k ∈ ws.head?, k.map Char.toUpper = key.toList ∧ ws = k :: vs)) = true)
    (h2 : lines.all (fun ws => decide ((∃ k ∈ ws.head?, k.map Char.toUpper = key.toList) → ws.tail = vs)) = true) : Says lines key vs := by
  constructor
  · obtain ⟨ws, hws, h⟩ := List.any_eq_true.mp h1
    obtain ⟨k, -, hk, rfl⟩ := of_decide_eq_true h
    exact ⟨k, hk, hws⟩
  · intro k vs' hm hk
    exact of_decide_eq_true (List.all_eq_true.mp h2 _ hm) ⟨k, rfl, hk⟩

theorem hand_gives : Gives handLines handValues :=
  ⟨⟨"2".toList, "3".toList, ["bins".toList], says_of (by decide +kernel) (by decide +kernel), ⟨[], 1, [2], .none, by decide, by decide, by decide, by decide⟩, ⟨[], 1, [3], .none, by decide, by decide, by decide, by decide⟩⟩,
    ⟨"0.25".toList, "+.5".toList, [], says_of (by decide +kernel) (by decide +kernel), ⟨[], 1, [0], [2, 5], .none, by decide, by decide, .inl (by decide), by decide +kernel⟩,
      ⟨['+'], 1, [], [5], .plus, by decide, by decide, .inl (by decide), by decide +kernel⟩⟩,
    ⟨"0.5".toList, "-1".toList, [], says_of (by decide +kernel) (by decide +kernel), ⟨[], 1, [0], [5], .none, by decide, by decide, .inl (by decide), by decide +kernel⟩,
      ⟨['-'], -1, [1], [], .minus, by decide, by decide, .inr ⟨rfl, by decide⟩, by decide +kernel⟩⟩,
    says_of (by decide +kernel) (by decide +kernel), ⟨"0".toList, [], says_of (by decide +kernel) (by decide +kernel), ⟨[], 1, [0], .none, by decide, by decide, by decide, by decide⟩⟩⟩

/-- A file with the header, filled up to a block. -/
example : LongEnough handHeader (List.replicate 1024 7) ∧ ∃ r info, Gmx.readData ieee32 (ascii handHeader ++ 0 :: List.replicate 1024 7) = .ok (r, info) ∧ info.shape = some (2, 3) := by
  have hb : LongEnough handHeader (List.replicate 1024 7) := by unfold LongEnough; decide +kernel
  refine ⟨hb, ?_⟩
  cases h : Gmx.readData ieee32 (ascii handHeader ++ 0 :: List.replicate 1024 7) with
  | error e =>
    have : (Gmx.readData ieee32 (ascii handHeader ++ 0 :: List.replicate 1024 7)).isOk = true := by decide +kernel
    rw [h] at this
    cases this
  | ok x =>
    obtain ⟨r, info⟩ := x
    exact ⟨r, info, rfl, (C145_grid ieee32 handLines handHeader handValues hand_header hand_gives _ hb r info h).2.2.1⟩

end Strata.Layout
