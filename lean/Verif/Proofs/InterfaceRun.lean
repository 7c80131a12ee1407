import Verif.Proofs.Interface
import Mathlib.Tactic.IntervalCases
/-! # The longest run, and the periodic search -/
namespace Strata.Interface
open Strata Strata.Flow

/-- Invariant of the scan after `i` cells of `L`. -/
structure ScanInv (L : List Bool) (i : ℕ) (st : Scan) : Prop where
  none_cur : st.ibegin = none → st.lenCurrent = 0
  none_prev : st.ibegin = none → i = 0 ∨ L[i - 1]? = some false
  some_cur : ∀ b, st.ibegin = some b → 1 ≤ st.lenCurrent ∧ b + st.lenCurrent = i ∧
    ∀ t, t < st.lenCurrent → L[b + t]? = some true
  some_prev : ∀ b, st.ibegin = some b → b = 0 ∨ L[b - 1]? = some false
  best_run : ∀ t, t < st.lenBest → L[st.indexBest + t]? = some true
  best_end : 0 < st.lenBest → ∃ e, st.indexBest + st.lenBest ≤ e ∧ e < i ∧ L[e]? = some false
  best_max : ∀ a k e, (∀ t, t < k → L[a + t]? = some true) → a + k ≤ e → e < i → L[e]? = some false →
    k ≤ st.lenBest

theorem scanInv_init (L : List Bool) : ScanInv L 0 ⟨0, 0, none, 0⟩ where
  none_cur := fun _ => rfl
  none_prev := fun _ => Or.inl rfl
  some_cur := by simp
  some_prev := by simp
  best_run := by simp
  best_end := by simp
  best_max := by intro a k e _ _ h; omega

theorem scanInv_step {L : List Bool} {i : ℕ} {st : Scan} {f : Bool} (h : ScanInv L i st) (hf : L[i]? = some f) :
    ScanInv L (i + 1) (st.step i f) := by
  -- a run closed exactly at `i` is the current one
  have hcl : L[i]? = some false → ∀ a k, (∀ t, t < k → L[a + t]? = some true) → a + k ≤ i →
      k ≤ st.lenBest ∨ k ≤ st.lenCurrent := by
    intro hi a k hrun hle
    cases hb : st.ibegin with
    | none =>
      rcases h.none_prev hb with h0 | hp
      · left; have : k = 0 := by omega
        omega
      · left
        rcases Nat.eq_zero_or_pos k with hk | hk
        · omega
        by_cases hlast : a + k = i
        · have := hrun (k - 1) (by omega)
          rw [show a + (k - 1) = i - 1 by omega, hp] at this
          simp at this
        · exact h.best_max a k (i - 1) hrun (by omega) (by omega) hp
    | some b =>
      obtain ⟨c1, c2, c3⟩ := h.some_cur b hb
      rcases Nat.eq_zero_or_pos k with hk | hk
      · omega
      by_cases hab : b ≤ a
      · right; omega
      · rcases h.some_prev b hb with h0 | hp
        · omega
        · left
          by_cases hin : a + k ≤ b - 1
          · exact h.best_max a k (b - 1) hrun hin (by omega) hp
          · have := hrun (b - 1 - a) (by omega)
            rw [show a + (b - 1 - a) = b - 1 by omega, hp] at this
            simp at this
  cases f with
  | true =>
    cases hb : st.ibegin with
    | none =>
      simp only [Scan.step, hb, if_true]
      have hprev := h.none_prev hb
      refine ⟨by simp, by simp, ?_, ?_, h.best_run, ?_, ?_⟩
      · intro b hb'
        simp only [Option.some.injEq] at hb'
        subst hb'
        refine ⟨le_refl _, rfl, ?_⟩
        intro t ht
        simp only at ht
        have : t = 0 := by omega
        subst this; exact hf
      · intro b hb'
        simp only [Option.some.injEq] at hb'
        subst hb'
        exact hprev
      · intro hp; obtain ⟨e, h1, h2, h3⟩ := h.best_end hp; exact ⟨e, h1, by omega, h3⟩
      · intro a k e hr h1 h2 h3
        refine h.best_max a k e hr h1 ?_ h3
        by_contra hc
        have : e = i := by omega
        subst this
        rw [hf] at h3; simp at h3
    | some b =>
      simp only [Scan.step, hb, if_true]
      obtain ⟨c1, c2, c3⟩ := h.some_cur b hb
      refine ⟨by simp, by simp, ?_, ?_, h.best_run, ?_, ?_⟩
      · intro b' hb'
        simp only [Option.some.injEq] at hb'
        subst hb'
        refine ⟨by simp, by simp only; omega, ?_⟩
        intro t ht
        simp only at ht
        by_cases htl : t < st.lenCurrent
        · exact c3 t htl
        · rw [show b + t = i by omega]; exact hf
      · intro b' hb'
        simp only [Option.some.injEq] at hb'
        subst hb'
        exact h.some_prev b hb
      · intro hp; obtain ⟨e, h1, h2, h3⟩ := h.best_end hp; exact ⟨e, h1, by omega, h3⟩
      · intro a k e hr h1 h2 h3
        refine h.best_max a k e hr h1 ?_ h3
        by_contra hc
        have : e = i := by omega
        subst this
        rw [hf] at h3; simp at h3
  | false =>
    have hmax : ∀ a k e, (∀ t, t < k → L[a + t]? = some true) → a + k ≤ e → e < i + 1 → L[e]? = some false →
        k ≤ st.lenBest ∨ k ≤ st.lenCurrent := by
      intro a k e hr h1 h2 h3
      by_cases hei : e < i
      · exact Or.inl (h.best_max a k e hr h1 hei h3)
      · exact hcl hf a k hr (by omega)
    cases hb : st.ibegin with
    | none =>
      have hz := h.none_cur hb
      simp only [Scan.step, hb, Bool.false_eq_true, if_false]
      refine ⟨by simp, by intro _; right; simpa using hf, by simp, by simp, h.best_run, ?_, ?_⟩
      · intro hp; obtain ⟨e, h1, h2, h3⟩ := h.best_end hp; exact ⟨e, h1, by omega, h3⟩
      · intro a k e hr h1 h2 h3
        have := hmax a k e hr h1 h2 h3
        simp only
        omega
    | some b =>
      obtain ⟨c1, c2, c3⟩ := h.some_cur b hb
      simp only [Scan.step, hb, Bool.false_eq_true, if_false]
      split
      · rename_i hgt
        refine ⟨by simp, by intro _; right; simpa using hf, by simp, by simp, c3, ?_, ?_⟩
        · intro _; exact ⟨i, by simp only; omega, by omega, hf⟩
        · intro a k e hr h1 h2 h3
          have := hmax a k e hr h1 h2 h3
          simp only
          omega
      · rename_i hle
        refine ⟨by simp, by intro _; right; simpa using hf, by simp, by simp, h.best_run, ?_, ?_⟩
        · intro hp; obtain ⟨e, h1, h2, h3⟩ := h.best_end hp; exact ⟨e, h1, by omega, h3⟩
        · intro a k e hr h1 h2 h3
          have := hmax a k e hr h1 h2 h3
          simp only
          omega

theorem scanInv_run (L : List Bool) : ∀ (rest : List Bool) (i : ℕ) (st : Scan), ScanInv L i st → L.drop i = rest →
    ScanInv L L.length (st.run i rest) := by
  intro rest
  induction rest with
  | nil =>
    intro i st h hd
    have hle : L.length ≤ i := List.drop_eq_nil_iff.mp hd
    simp only [Scan.run]
    -- nothing beyond the end: the invariant at `i` restricts to the length
    refine ⟨h.none_cur, ?_, ?_, h.some_prev, h.best_run, ?_, ?_⟩
    · intro hn
      rcases h.none_prev hn with h0 | hp
      · left; omega
      · by_cases he : i = L.length
        · rw [← he]; right; exact hp
        · rw [List.getElem?_eq_none (by omega)] at hp; simp at hp
    · intro b hb
      obtain ⟨c1, c2, c3⟩ := h.some_cur b hb
      have := c3 (st.lenCurrent - 1) (by omega)
      have hlt := (List.getElem?_eq_some_iff.mp this).1
      exact ⟨c1, by omega, c3⟩
    · intro hp
      obtain ⟨e, h1, h2, h3⟩ := h.best_end hp
      exact ⟨e, h1, (List.getElem?_eq_some_iff.mp h3).1, h3⟩
    · intro a k e hr h1 h2 h3; exact h.best_max a k e hr h1 (by omega) h3
  | cons b rest ih =>
    intro i st h hd
    have hb : L[i]? = some b := by
      have := congrArg (fun l => l[0]?) hd
      simpa using this
    simp only [Scan.run]
    refine ih (i + 1) _ (scanInv_step h hb) ?_
    rw [← List.drop_drop, hd]; rfl

theorem getElem?_double (l : List Bool) (j : ℕ) (h : j < 2 * l.length) : (l ++ l)[j]? = l[j % l.length]? := by
  by_cases hj : j < l.length
  · rw [List.getElem?_append_left hj, Nat.mod_eq_of_lt hj]
  · rw [List.getElem?_append_right (by omega)]
    congr 1
    rw [Nat.mod_eq_sub_mod (by omega), Nat.mod_eq_of_lt (by omega)]

theorem cyclicRun_true (l : List Bool) (a k : ℕ) (h : CyclicRun (· = true) l a k) (t : ℕ) (ht : t < k) :
    l[(a + t) % l.length]? = some true := by
  obtain ⟨b, hb, rfl⟩ := h t ht; exact hb

/-- Every cyclic run of at most one turn is seen, closed, in the doubled list if some cell is empty. -/
theorem run_in_double {l : List Bool} {p : ℕ} (hp : l[p]? = some false) {a k : ℕ} (ha : a < l.length)
    (hk : k ≤ l.length) (h : CyclicRun (· = true) l a k) :
    (∀ t, t < k → (l ++ l)[a + t]? = some true) ∧ a + k ≤ p + l.length ∧ p + l.length < (l ++ l).length ∧
      (l ++ l)[p + l.length]? = some false := by
  have hpl := (List.getElem?_eq_some_iff.mp hp).1
  have hfalse : (l ++ l)[p + l.length]? = some false := by
    rw [getElem?_double l _ (by omega)]
    simpa [Nat.mod_eq_of_lt hpl] using hp
  have hrun : ∀ t, t < k → (l ++ l)[a + t]? = some true := by
    intro t ht
    rw [getElem?_double l _ (by omega)]
    exact cyclicRun_true l a k h t ht
  refine ⟨hrun, ?_, by rw [List.length_append]; omega, hfalse⟩
  by_contra hc
  have := hrun (p + l.length - a) (by omega)
  rw [show a + (p + l.length - a) = p + l.length by omega, hfalse] at this
  simp at this

theorem cyclicRun_start_mod {α : Type} (P : α → Prop) (l : List α) (a k : ℕ) :
    CyclicRun P l (a % l.length) k ↔ CyclicRun P l a k := by
  unfold CyclicRun
  simp only [Nat.mod_add_mod]

theorem cyclicRun_of_all (l : List Bool) (h : ∀ b ∈ l, b = true) (hne : l ≠ []) (a k : ℕ) :
    CyclicRun (· = true) l a k := by
  intro t _
  have hl : (a + t) % l.length < l.length := Nat.mod_lt _ (List.length_pos_of_ne_nil hne)
  exact ⟨l[(a + t) % l.length], List.getElem?_eq_getElem hl, h _ (List.getElem_mem hl)⟩

theorem findEdges_spec (l : List Bool) :
    (findEdges l = none ↔ ∀ b ∈ l, b = false) ∧
    ∀ e1 e2, findEdges l = some (e1, e2) →
      ∃ len, LongestRun (· = true) l e1 len ∧ e2 = (e1 + len - 1) % l.length ∧
        (len = l.length ↔ ∀ b ∈ l, b = true) := by
  have hinv := scanInv_run (l ++ l) (l ++ l) 0 _ (scanInv_init _) rfl
  obtain ⟨st, hst⟩ : ∃ st, st = Scan.run ⟨0, 0, none, 0⟩ 0 (l ++ l) := ⟨_, rfl⟩
  rw [← hst] at hinv
  by_cases hall : ∀ b ∈ l, b = true
  · -- completely filled
    have hL : ∀ b ∈ l ++ l, b = true := by simpa using hall
    have hbest : st.lenBest = 0 := by
      by_contra hc
      obtain ⟨e, _, _, he⟩ := hinv.best_end (by omega)
      have := hL false (List.mem_of_getElem? he)
      simp at this
    by_cases hne : l = []
    · subst hne
      have : findEdges [] = none := by decide
      rw [this]
      simp
    · have hpos := List.length_pos_of_ne_nil hne
      have hcur : st.lenCurrent = 2 * l.length := by
        cases hb : st.ibegin with
        | none =>
          rcases hinv.none_prev hb with h0 | hp
          · simp only [List.length_append] at h0; omega
          · have := hL false (List.mem_of_getElem? hp); simp at this
        | some b =>
          obtain ⟨c1, c2, c3⟩ := hinv.some_cur b hb
          rcases hinv.some_prev b hb with h0 | hp
          · simp only [List.length_append] at c2; omega
          · have := hL false (List.mem_of_getElem? hp); simp at this
      have hfe : findEdges l = some (0, l.length - 1) := by
        unfold findEdges
        simp only [← hst, hbest, hcur]
        rw [if_pos ⟨by omega, trivial⟩]
        simp only [Nat.zero_mod, Nat.zero_add, Option.some.injEq, Prod.mk.injEq, true_and]
        rw [Nat.mod_eq_sub_mod (by omega), show 2 * l.length - 1 - l.length = l.length - 1 by omega,
          Nat.mod_eq_of_lt (by omega)]
      rw [hfe]
      refine ⟨?_, ?_⟩
      · simp only [reduceCtorEq, false_iff, not_forall]
        obtain ⟨b, hb⟩ := List.exists_mem_of_ne_nil l hne
        exact ⟨b, hb, by rw [hall b hb]; simp⟩
      · intro e1 e2 he
        simp only [Option.some.injEq, Prod.mk.injEq] at he
        obtain ⟨rfl, rfl⟩ := he
        refine ⟨l.length, ⟨hpos, le_refl _, hpos, cyclicRun_of_all l hall hne 0 _, ?_⟩, ?_, by simpa using hall⟩
        · intro _ _ h _; exact h
        · rw [Nat.zero_add, Nat.mod_eq_of_lt (by omega)]
  · -- some cell is empty
    rw [not_forall] at hall
    obtain ⟨bf, hall⟩ := hall
    rw [Classical.not_imp, Bool.not_eq_true] at hall
    obtain ⟨hbm, rfl⟩ := hall
    obtain ⟨p, hpl, hpe⟩ := List.getElem_of_mem hbm
    have hp : l[p]? = some false := by rw [List.getElem?_eq_getElem hpl, hpe]
    have hmax : ∀ a k, k ≤ l.length → CyclicRun (· = true) l a k → k ≤ st.lenBest := by
      intro a k hk hr
      have ha : a % l.length < l.length := Nat.mod_lt _ (by omega)
      obtain ⟨h1, h2, h3, h4⟩ := run_in_double hp ha hk ((cyclicRun_start_mod _ _ _ _).mpr hr)
      exact hinv.best_max _ k _ h1 h2 h3 h4
    by_cases hb0 : st.lenBest = 0
    · have hnone : ∀ b ∈ l, b = false := by
        intro b hb
        by_contra hc
        rw [Bool.not_eq_false] at hc
        subst hc
        obtain ⟨q, hql, hqe⟩ := List.getElem_of_mem hb
        have := hmax q 1 (by omega) (by
          intro t ht
          have : t = 0 := by omega
          subst this
          exact ⟨true, by rw [Nat.add_zero, Nat.mod_eq_of_lt hql, List.getElem?_eq_getElem hql, hqe], rfl⟩)
        omega
      have hcur : st.lenCurrent = 0 := by
        cases hb : st.ibegin with
        | none => exact hinv.none_cur hb
        | some b =>
          obtain ⟨c1, _, c3⟩ := hinv.some_cur b hb
          have := List.mem_of_getElem? (c3 0 (by omega))
          simp only [List.mem_append, or_self] at this
          have := hnone _ this
          simp at this
      have hfe : findEdges l = none := by
        unfold findEdges
        simp only [← hst, hb0, hcur]
        simp
      rw [hfe]
      exact ⟨by simpa using hnone, by simp⟩
    · have hend := hinv.best_end (by omega)
      obtain ⟨e, he1, he2, he3⟩ := hend
      simp only [List.length_append] at he2
      have hrunL := hinv.best_run
      have hlt : st.lenBest < l.length := by
        by_contra hc
        -- the run covers an image of the empty cell
        have hex : ∃ q, st.indexBest ≤ q ∧ q < st.indexBest + l.length ∧ q % l.length = p := by
          have h1 := Nat.mod_lt (st.indexBest) (show 0 < l.length by omega)
          have h2 := Nat.div_add_mod st.indexBest l.length
          by_cases hle : st.indexBest % l.length ≤ p
          · refine ⟨l.length * (st.indexBest / l.length) + p, by omega, by omega, ?_⟩
            rw [Nat.mul_add_mod, Nat.mod_eq_of_lt hpl]
          · refine ⟨l.length * (st.indexBest / l.length + 1) + p, ?_, ?_, ?_⟩
            · rw [Nat.mul_add]; omega
            · rw [Nat.mul_add]; omega
            · rw [Nat.mul_add_mod, Nat.mod_eq_of_lt hpl]
        obtain ⟨q, q1, q2, q3⟩ := hex
        have := hrunL (q - st.indexBest) (by omega)
        rw [show st.indexBest + (q - st.indexBest) = q by omega, getElem?_double l _ (by omega), q3, hp] at this
        simp at this
      have hrun : CyclicRun (· = true) l (st.indexBest % l.length) st.lenBest := by
        rw [cyclicRun_start_mod]
        intro t ht
        refine ⟨true, ?_, rfl⟩
        rw [← getElem?_double l _ (by omega)]
        exact hrunL t ht
      have hfe : findEdges l = some (st.indexBest % l.length,
          (st.indexBest % l.length + st.lenBest - 1) % l.length) := by
        unfold findEdges
        simp only [← hst]
        rw [if_neg (by omega), if_neg hb0]
      rw [hfe]
      refine ⟨?_, ?_⟩
      · simp only [reduceCtorEq, false_iff, not_forall]
        refine ⟨true, ?_, by simp⟩
        obtain ⟨b, hb, rfl⟩ := hrun 0 (by omega)
        exact List.mem_of_getElem? hb
      · intro e1 e2 heq
        simp only [Option.some.injEq, Prod.mk.injEq] at heq
        obtain ⟨rfl, rfl⟩ := heq
        refine ⟨st.lenBest, ⟨by omega, by omega, Nat.mod_lt _ (by omega), hrun, hmax⟩, rfl, ?_⟩
        constructor
        · intro h; omega
        · intro h; have := h false hbm; simp at this

/-! ## Periodic neighbours -/

theorem image_zero (box : ℚ) (c : Cell) : image box 0 c = c := by simp [image]

theorem countP_filter_map (s : System) (p q : Cell → Bool) (f : Cell → Cell) (h : ∀ d, p (f d) = true → q d = true) :
    ((s.filter q).map f).countP p = s.countP fun d => p (f d) := by
  rw [List.countP_map, List.countP_filter]
  congr 1
  funext d
  have := h d
  simp only [Function.comp]
  cases hp : p (f d) <;> simp_all

theorem countP_filter_of_imp {α : Type} (s : List α) (p q : α → Bool) (h : ∀ d, p d = true → q d = true) :
    (s.filter q).countP p = s.countP p := by
  rw [List.countP_filter]
  congr 1
  funext d
  have := h d
  cases hp : p d <;> simp_all

theorem near_y {r : ℚ} (hr : 0 ≤ r) {a b : Cell} (h : Near r a b) : b.y ≤ a.y + r ∧ b.y ≥ a.y - r := by
  unfold Near at h
  have h2 : (b.y - a.y) ^ 2 ≤ r ^ 2 := by nlinarith [sq_nonneg (b.x - a.x)]
  have := abs_le.mp (abs_le_of_sq_le_sq h2 hr)
  constructor <;> linarith [this.1, this.2]

theorem near_x {r : ℚ} (hr : 0 ≤ r) {a b : Cell} (h : Near r a b) : b.x ≤ a.x + r ∧ b.x ≥ a.x - r := by
  unfold Near at h
  have h2 : (b.x - a.x) ^ 2 ≤ r ^ 2 := by nlinarith [sq_nonneg (b.y - a.y)]
  have := abs_le.mp (abs_le_of_sq_le_sq h2 hr)
  constructor <;> linarith [this.1, this.2]

/-- What the slice of the code counts for a cell. -/
theorem countP_ySlice (s : System) (r c box : ℚ) (hr : 0 ≤ r) (a : Cell) (h0 : 0 ≤ a.x) (h1 : a.x ≤ box) :
    (ySlice s r box a.y).countP (counts r c a) =
      s.countP (fun d => counts r c a (image box 0 d)) + s.countP (fun d => counts r c a (image box 1 d)) +
      s.countP (fun d => counts r c a (image box (-1) d)) := by
  unfold ySlice pbcCopies
  have hy : ∀ d, counts r c a d = true → decide (d.y ≤ a.y + r ∧ d.y ≥ a.y - r) = true := by
    intro d hd
    simp only [counts, decide_eq_true_eq] at hd
    simpa using near_y hr hd.2
  rw [List.countP_append, countP_filter_of_imp _ _ _ hy, countP_filter_of_imp _ _ _ hy, List.countP_append,
    countP_filter_map, countP_filter_map]
  · simp only [image_zero]
    rw [add_assoc]
    simp [image, sub_eq_add_neg]
  · intro d hd
    simp only [counts, decide_eq_true_eq] at hd
    have := near_x hr hd.2
    simp only [ge_iff_le, decide_eq_true_eq] at this ⊢
    linarith [this.2]
  · intro d hd
    simp only [counts, decide_eq_true_eq] at hd
    have := near_x hr hd.2
    simp only [decide_eq_true_eq] at this ⊢
    linarith [this.1]

theorem periodicLiquid_iff (s : System) (box r c : ℚ) (b : ℤ) (hr : 0 ≤ r) (hrb : r < box)
    (hx : ∀ d ∈ s, 0 ≤ d.x ∧ d.x ≤ box) (i : ℕ) (hi : i < s.length) :
    PeriodicLiquid s box r c b i ↔ LiquidCell (ySlice s r box (row s i).y) r c b (row s i) := by
  have hmem : ∀ j, j < s.length → row s j ∈ s := by
    intro j hj; rw [row_eq_getElem s j hj]; exact List.getElem_mem hj
  obtain ⟨a0, a1⟩ := hx _ (hmem i hi)
  unfold PeriodicLiquid LiquidCell
  rw [countP_ySlice s r c box hr _ a0 a1]
  simp only [hi, true_and]
  refine and_congr_right fun hv => ?_
  let F : Finset (ℕ × ℤ) := (Finset.range s.length ×ˢ ({0, 1, -1} : Finset ℤ)).filter fun p =>
    counts r c (row s i) (image box p.2 (row s p.1)) = true
  have hset : {p : ℕ × ℤ | p.1 < s.length ∧ p ≠ (i, 0) ∧ c ≤ (row s p.1).v ∧
      Near r (row s i) (image box p.2 (row s p.1))} = ↑(F.erase (i, 0)) := by
    ext ⟨j, k⟩
    simp only [Set.mem_ofPred_eq, Finset.coe_erase, Set.mem_sdiff, Finset.mem_coe, F, Finset.mem_filter,
      Finset.mem_product, Finset.mem_range, counts, decide_eq_true_eq, Set.mem_singleton_iff,
      Finset.mem_insert, Finset.mem_singleton]
    constructor
    · rintro ⟨hj, hne, hv', hn⟩
      refine ⟨⟨⟨hj, ?_⟩, hv', hn⟩, hne⟩
      obtain ⟨b0, b1⟩ := hx _ (hmem j hj)
      obtain ⟨n1, n2⟩ := near_x hr hn
      simp only [image] at n1 n2
      have hk1 : (k : ℚ) < 2 := by
        by_contra hc
        rw [not_lt] at hc
        nlinarith
      have hk2 : (-2 : ℚ) < k := by
        by_contra hc
        rw [not_lt] at hc
        nlinarith
      have hk1' : k < 2 := by exact_mod_cast hk1
      have hk2' : -2 < k := by exact_mod_cast hk2
      omega
    · rintro ⟨⟨⟨hj, _⟩, hv', hn⟩, hne⟩
      exact ⟨hj, hne, hv', hn⟩
  have hin : (i, (0 : ℤ)) ∈ F := by
    simp [F, hi, counts, hv, image_zero, near_self]
  rw [hset, Set.ncard_coe_finset, Finset.card_erase_of_mem hin]
  have hpos := Finset.card_pos.mpr ⟨_, hin⟩
  have hF : F.card = s.countP (fun d => counts r c (row s i) (image box 0 d)) +
      s.countP (fun d => counts r c (row s i) (image box 1 d)) +
      s.countP (fun d => counts r c (row s i) (image box (-1) d)) := by
    have hk : ∀ k : ℤ, s.countP (fun d => counts r c (row s i) (image box k d)) =
        ∑ j ∈ Finset.range s.length, if counts r c (row s i) (image box k (row s j)) = true then 1 else 0 := by
      intro k
      rw [← card_filter_range s fun d => counts r c (row s i) (image box k d), Finset.card_filter]
    rw [hk, hk, hk, Finset.card_filter, Finset.sum_product_right]
    rw [Finset.sum_insert (by simp), Finset.sum_insert (by simp), Finset.sum_singleton, add_assoc]
  rw [← hF]
  omega

/-! ## The layer -/

theorem layerRows_map (s : System) (y : ℚ) : (layerRows s y).map (row s) = s.filter fun d => d.y = y :=
  map_row_filter s fun d => decide (d.y = y)

theorem mem_layerRows (s : System) (y : ℚ) (i : ℕ) : i ∈ layerRows s y ↔ i < s.length ∧ (row s i).y = y := by
  simp [layerRows]

theorem sortLayer_eq {s : System} {y : ℚ} {order : List ℕ} (hp : order.Perm (layerRows s y))
    (hs : order.Pairwise fun i j => (row s i).x < (row s j).x) :
    sortLayer ((layerRows s y).map (row s)) = order.map (row s) := by
  have hs' : (order.map (row s)).Pairwise fun a b => a.x < b.x := by
    rw [List.pairwise_map]; exact hs
  refine List.Perm.eq_of_pairwise (le := fun a b => a.x ≤ b.x) ?_ (sortLayer_pairwise _) (hs'.imp le_of_lt)
    ((List.perm_insertionSort _ _).trans (hp.symm.map _))
  intro a b ha hb h1 h2
  have ha' : a ∈ order.map (row s) := by
    rw [mem_sortLayer] at ha; exact (hp.symm.map _).mem_iff.mp ha
  have hx : a.x = b.x := le_antisymm h1 h2
  by_contra hne
  obtain ⟨i, hi, rfl⟩ := List.getElem_of_mem ha'
  obtain ⟨j, hj, rfl⟩ := List.getElem_of_mem hb
  rw [List.pairwise_iff_getElem] at hs'
  rcases lt_trichotomy i j with h | h | h
  · exact (hs' i j hi hj h).ne hx
  · subst h; exact hne rfl
  · exact (hs' j i hj hi h).ne hx.symm

theorem filledCells_eq {s : System} {y box r c : ℚ} {b : ℤ} {order : List ℕ} (hp : order.Perm (layerRows s y))
    (hr : 0 ≤ r) :
    filledCells (order.map (row s)) (ySlice s r box y) r c b =
      order.map fun i => decide (LiquidCell (ySlice s r box y) r c b (row s i)) := by
  unfold filledCells
  rw [List.map_map]
  apply List.map_congr_left
  intro i hi
  have him := (mem_layerRows s y i).mp (hp.mem_iff.mp hi)
  have hin : row s i ∈ ySlice s r box y := by
    unfold ySlice
    rw [List.mem_append, List.mem_filter]
    left
    refine ⟨by rw [row_eq_getElem s i him.1]; exact List.getElem_mem _, ?_⟩
    simp [him.2, hr]
  simp only [Function.comp]
  rw [cellIsDroplet_eq (indexOf (row s i) _) _ (List.idxOf_lt_length_of_mem hin), row_indexOf hin]

theorem cyclicRun_map {α : Type} (P : α → Prop) [DecidablePred P] (l : List α) (a k : ℕ) :
    CyclicRun (· = true) (l.map fun i => decide (P i)) a k ↔ CyclicRun P l a k := by
  unfold CyclicRun
  simp only [List.length_map, List.getElem?_map, Option.map_eq_some_iff]
  constructor
  · intro h t ht
    obtain ⟨_, ⟨x, hx, rfl⟩, hb⟩ := h t ht
    exact ⟨x, hx, by simpa using hb⟩
  · intro h t ht
    obtain ⟨x, hx, hP⟩ := h t ht
    exact ⟨true, ⟨x, hx, by simpa using hP⟩, rfl⟩

theorem longestRun_map {α : Type} (P : α → Prop) [DecidablePred P] (l : List α) (a k : ℕ) :
    LongestRun (· = true) (l.map fun i => decide (P i)) a k ↔ LongestRun P l a k := by
  unfold LongestRun
  simp only [cyclicRun_map, List.length_map]

theorem findEdges_map {α : Type} (P : α → Prop) [DecidablePred P] (l : List α) :
    (findEdges (l.map fun i => decide (P i)) = none ↔ ∀ i ∈ l, ¬ P i) ∧
    ∀ e1 e2, findEdges (l.map fun i => decide (P i)) = some (e1, e2) →
      ∃ len, LongestRun P l e1 len ∧ e2 = (e1 + len - 1) % l.length ∧ (len = l.length ↔ ∀ i ∈ l, P i) := by
  obtain ⟨h1, h2⟩ := findEdges_spec (l.map fun i => decide (P i))
  constructor
  · rw [h1]; simp
  · intro e1 e2 he
    obtain ⟨len, ha, hb, hc⟩ := h2 e1 e2 he
    refine ⟨len, (longestRun_map P l e1 len).mp ha, by simpa using hb, ?_⟩
    simpa using hc

theorem longestRun_congr {α : Type} {P Q : α → Prop} {l : List α} (h : ∀ a ∈ l, P a ↔ Q a) (e k : ℕ) :
    LongestRun P l e k ↔ LongestRun Q l e k := by
  have hc : ∀ a k, CyclicRun P l a k ↔ CyclicRun Q l a k := by
    intro a k
    unfold CyclicRun
    refine forall_congr' fun t => forall_congr' fun _ => exists_congr fun x => and_congr_right fun hx => h x ?_
    exact List.mem_of_getElem? hx
  unfold LongestRun
  simp only [hc]

end Strata.Interface
