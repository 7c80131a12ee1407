import Verif.Model.SpreadingEdges
import Verif.Proofs.ArgMin
import Verif.Props.Interface
import Verif.Props.Spreading
import Verif.Proofs.SimpleText
/-!
# C91, C92: the contact line used for spreading
-/
namespace Strata.Spreading
open Strata Strata.Flow Strata.Average Strata.Interface Strata.Spec

theorem within_same (y z : ℚ) : Within (some y) (some y) z ↔ z = y := by
  unfold Within
  simp
  constructor
  · rintro ⟨h1, h2⟩; exact le_antisymm h2 h1
  · rintro rfl; exact ⟨le_rfl, le_rfl⟩

theorem within_none (z : ℚ) : Within none none z := by
  unfold Within
  simp

/-- What the loop over an interface with ascending heights returns. -/
theorem firstInLayer_spec (s : System) (yf : Option ℚ) (pts : List (ℕ × ℕ)) (h : (pts.map fun p => (row s p.1).y).Pairwise (· < ·)) :
    (firstInLayer s yf pts = none ↔ ∀ p ∈ pts, ∃ y, yf = some y ∧ (row s p.1).y ≠ y) ∧
    ∀ e, firstInLayer s yf pts = some e → ∃ p ∈ pts, e = ((row s p.1).x, (row s p.2).x) ∧ (∀ y, yf = some y → (row s p.1).y = y) ∧
      (yf = none → ∀ q ∈ pts, (row s p.1).y ≤ (row s q.1).y) := by
  unfold firstInLayer
  cases yf with
  | none =>
    cases pts with
    | nil => simp
    | cons p pts =>
      simp only [List.find?_cons, Option.map_some]
      refine ⟨⟨by simp, fun h => ?_⟩, ?_⟩
      · obtain ⟨y, hy, -⟩ := h p (by simp)
        cases hy
      rintro e he
      obtain rfl := Option.some.inj he
      refine ⟨p, by simp, rfl, by simp, ?_⟩
      rintro - q hq
      rcases List.mem_cons.mp hq with rfl | hq
      · rfl
      · rw [List.map_cons, List.pairwise_cons] at h
        exact (h.1 _ (List.mem_map.mpr ⟨q, hq, rfl⟩)).le
  | some y =>
    constructor
    · rw [Option.map_eq_none_iff, List.find?_eq_none]
      simp
    · intro e he
      obtain ⟨p, hp, rfl⟩ := Option.map_eq_some_iff.mp he
      have h1 := List.find?_some hp
      simp only [decide_eq_true_eq] at h1
      refine ⟨p, List.mem_of_find?_eq_some hp, rfl, ?_, by simp⟩
      rintro y' hy
      obtain rfl := Option.some.inj hy
      exact h1

/-- **C91.** With the search from outside in, the edges are the outermost liquid bins of the floor layer or, without a floor, of the lowest layer with
liquid bins; there are none exactly if there is no such layer. -/
theorem C91_outside_in (s : System) (box : Option (ℚ × ℚ)) (r c : ℚ) (floor yf : Option ℚ) (o : Interface.Opts) (hl : o.longest = false)
    (hc : getCutoff o.cutoff s = .ok c) (hf : floorHeight floor (s.map (·.y)) = .ok yf) :
    ∃ e, spreadingEdges s box r floor o = .ok e ∧
      (e = none ↔ ∀ j, Liquid s r c o.bins j → ∃ y, yf = some y ∧ (row s j).y ≠ y) ∧
      ∀ xl xr, e = some (xl, xr) → ∃ y, LiquidLayer s r c o.bins y xl xr ∧ (∀ y', yf = some y' → y = y') ∧
        (yf = none → ∀ j, Liquid s r c o.bins j → y ≤ (row s j).y) := by
  obtain ⟨out, h1, h2, h3, h4⟩ := C32_outside_in s box { o with ylims := (yf, yf), radius := some r } hl r c hc rfl
  obtain ⟨g1, g2⟩ := firstInLayer_spec s yf out h2
  refine ⟨firstInLayer s yf out, ?_, ?_, ?_⟩
  · unfold spreadingEdges
    rw [hf, Gmx.ok_bind, h1]
    rfl
  · rw [g1]
    constructor
    · intro h j hj
      by_contra hn
      push Not at hn
      have hw : Within yf yf (row s j).y := by
        cases yf with
        | none => exact within_none _
        | some y => rw [within_same]; exact hn y rfl
      obtain ⟨p, hp, he⟩ := h4 j hj hw
      obtain ⟨y, hy, hne⟩ := h p hp
      exact hne (he.trans (hn y hy))
    · intro h p hp
      obtain ⟨-, -, hp3, -⟩ := h3 p hp
      exact h p.1 hp3
  · intro xl xr he
    obtain ⟨p, hp, hxy, a1, a2⟩ := g2 _ he
    obtain ⟨b1, b2, b3, b4, b5⟩ := h3 p hp
    simp only [Prod.mk.injEq] at hxy
    obtain ⟨rfl, rfl⟩ := hxy
    refine ⟨(row s p.1).y, ⟨⟨p.1, b3, rfl, rfl⟩, ⟨p.2, b4, b1, rfl⟩, b5⟩, a1, ?_⟩
    intro hn j hj
    obtain ⟨q, hq, hqy⟩ := h4 j hj (by
      subst hn
      exact within_none _)
    rw [← hqy]
    exact a2 hn q hq

/-- **C91.** With the search for the longest connected stretch, which `collect` uses, on maps whose layers are stored from left to right: the edges are
the ends of a longest run of liquid bins, the box being continued periodically, of the floor layer or of the lowest layer with liquid bins. -/
theorem C91_longest (s : System) (box : ℚ × ℚ) (r c : ℚ) (floor yf : Option ℚ) (o : Interface.Opts) (hl : o.longest = true)
    (hc : getCutoff o.cutoff s = .ok c) (hf : floorHeight floor (s.map (·.y)) = .ok yf) (h0 : 0 ≤ r) (hrb : r < box.1)
    (hx : ∀ d ∈ s, 0 ≤ d.x ∧ d.x ≤ box.1)
    (hsort : ∀ y, (layerRows s y).Pairwise fun i j => (row s i).x < (row s j).x) :
    ∃ e, spreadingEdges s (some box) r floor o = .ok e ∧
      (e = none ↔ ∀ j, PeriodicLiquid s box.1 r c o.bins j → ∃ y, yf = some y ∧ (row s j).y ≠ y) ∧
      ∀ xl xr, e = some (xl, xr) → ∃ y start len i j, LongestRun (PeriodicLiquid s box.1 r c o.bins) (layerRows s y) start len ∧
        (layerRows s y)[start]? = some i ∧ (layerRows s y)[(start + len - 1) % (layerRows s y).length]? = some j ∧
        xl = (row s i).x ∧ xr = (row s j).x ∧ (∀ y', yf = some y' → y = y') ∧
        (yf = none → ∀ j, PeriodicLiquid s box.1 r c o.bins j → y ≤ (row s j).y) := by
  obtain ⟨out, h1, h2, h3, h4⟩ := C33_periodic_search s box { o with ylims := (yf, yf), radius := some r } hl r c hc rfl h0 hrb hx
    (layerRows s) (fun y => .rfl) hsort
  obtain ⟨g1, g2⟩ := firstInLayer_spec s yf out h2
  have hy : ∀ {y : ℚ} {k i : ℕ}, (layerRows s y)[k]? = some i → (row s i).y = y := by
    intro y k i h
    have := List.mem_of_getElem? h
    simpa [layerRows] using (List.mem_filter.mp this).2
  refine ⟨firstInLayer s yf out, ?_, ?_, ?_⟩
  · unfold spreadingEdges
    rw [hf, Gmx.ok_bind, h1]
    rfl
  · rw [g1]
    constructor
    · intro h j hj
      by_contra hn
      push Not at hn
      have hw : Within yf yf (row s j).y := by
        cases yf with
        | none => exact within_none _
        | some y => rw [within_same]; exact hn y rfl
      obtain ⟨p, hp, he⟩ := h4 j hj hw
      obtain ⟨y, hy, hne⟩ := h p hp
      exact hne (he.trans (hn y hy))
    · intro h p hp
      obtain ⟨y, start, len, -, hrun, hs, -, -⟩ := h3 p hp
      obtain ⟨a, ha, hP⟩ := hrun.2.2.2.1 0 hrun.1
      rw [Nat.add_zero, Nat.mod_eq_of_lt hrun.2.2.1, hs] at ha
      obtain rfl := Option.some.inj ha
      exact h _ hP
  · intro xl xr he
    obtain ⟨p, hp, hxy, a1, a2⟩ := g2 _ he
    simp only [Prod.mk.injEq] at hxy
    obtain ⟨rfl, rfl⟩ := hxy
    obtain ⟨y, start, len, -, hrun, hs, hs', -⟩ := h3 p hp
    have hyp := hy hs
    refine ⟨y, start, len, p.1, p.2, hrun, hs, hs', rfl, rfl, ?_, ?_⟩
    · intro y' hy'
      rw [← hyp]
      exact a1 y' hy'
    · intro hn j hj
      obtain ⟨q, hq, hqy⟩ := h4 j hj (by
        subst hn
        exact within_none _)
      rw [← hqy, ← hyp]
      exact a2 hn q hq

/-- A droplet whose lowest layer reaches across the boundary of the box. -/
example : let s : System := [⟨0, 0, 1, []⟩, ⟨1, 0, 0, []⟩, ⟨2, 0, 0, []⟩, ⟨3, 0, 1, []⟩, ⟨4, 0, 1, []⟩, ⟨0, 1, 0, []⟩, ⟨1, 1, 0, []⟩, ⟨2, 1, 0, []⟩, ⟨3, 1, 1, []⟩, ⟨4, 1, 1, []⟩]
    spreadingEdges s (some (5, 2)) 1 none { longest := true, cutoff := some (1 / 2) } = .ok (some (3, 0)) ∧
    spreadingEdges s (some (5, 2)) 1 none { cutoff := some (1 / 2) } = .ok (some (3, 4)) ∧
    spreadingEdges s (some (5, 2)) 1 (some (1 / 2)) { longest := true, cutoff := some (1 / 2) } = .ok (some (3, 4)) := by
  refine ⟨?_, ?_, ?_⟩ <;> decide +kernel

/-! ## The floor -/

theorem floorMeasure_zero (f y : ℚ) : floorMeasure f y = 0 ↔ f < y ∧ y ≤ f + 1 := by
  unfold floorMeasure
  rw [abs_eq_zero, sub_eq_zero, Int.ceil_eq_iff]
  push_cast
  constructor
  · rintro ⟨h1, h2⟩; exact ⟨by linarith, by linarith⟩
  · rintro ⟨h1, h2⟩; exact ⟨by linarith, by linarith⟩

/-- **C91.** If some height lies in the unit above the floor, the floor layer is the first such height in the order of the data. -/
theorem C91_floor_unit (f : ℚ) (ys : List ℚ) (h : ∃ y ∈ ys, f < y ∧ y ≤ f + 1) :
    ∃ A y B, floorLayer f ys = .ok y ∧ ys = A ++ y :: B ∧ f < y ∧ y ≤ f + 1 ∧ ∀ a ∈ A, ¬ (f < a ∧ a ≤ f + 1) := by
  obtain ⟨y0, hy0, hy⟩ := h
  cases ys with
  | nil => simp at hy0
  | cons a ys =>
    obtain ⟨A, r, B, h1, h2, h3, h4⟩ := argmin_spec (floorMeasure f) a ys
    have hr : floorMeasure f r = 0 := by
      have h0 := (floorMeasure_zero f y0).mpr hy
      have hle : floorMeasure f r ≤ floorMeasure f y0 := by
        rw [h2] at hy0
        simp only [List.mem_append, List.mem_cons] at hy0
        rcases hy0 with h | rfl | h
        · exact (h3 _ h).le
        · exact le_rfl
        · exact h4 _ h
      rw [h0] at hle
      exact le_antisymm hle (abs_nonneg _)
    refine ⟨A, r, B, ?_, h2, ((floorMeasure_zero f r).mp hr).1, ((floorMeasure_zero f r).mp hr).2, ?_⟩
    · unfold floorLayer
      simp only
      rw [h1]
    · intro x hx hc
      have := h3 x hx
      rw [hr, (floorMeasure_zero f x).mpr hc] at this
      exact lt_irrefl _ this

/-- **C91, partial.** On a map whose first column goes up through layers at most one unit apart, with the lowest at most one unit above the floor and
the highest above it, the floor layer is the lowest layer above the floor.  Missing: layers further apart and other orders
(`C91_floor_counterexample`). -/
theorem C91_floor_partial (f y0 d : ℚ) (n : ℕ) (rest : List ℚ) (hd : 0 < d) (hd1 : d ≤ 1) (h0 : y0 ≤ f + 1) (hn : f < y0 + d * (n : ℚ))
    (hrest : ∀ y ∈ rest, ∃ i : ℕ, i ≤ n ∧ y = y0 + d * (i : ℚ)) :
    ∃ y, floorLayer f (((List.range (n + 1)).map fun i : ℕ => y0 + d * (i : ℚ)) ++ rest) = .ok y ∧ f < y ∧
      ∀ z ∈ ((List.range (n + 1)).map fun i : ℕ => y0 + d * (i : ℚ)) ++ rest, f < z → y ≤ z := by
  classical
  -- the first layer above the floor
  have hex : ∃ i : ℕ, f < y0 + d * (i : ℚ) := ⟨n, hn⟩
  obtain ⟨k, hk, hmin⟩ : ∃ k : ℕ, f < y0 + d * (k : ℚ) ∧ ∀ i : ℕ, i < k → ¬ f < y0 + d * (i : ℚ) :=
    ⟨Nat.find hex, Nat.find_spec hex, fun i hi => Nat.find_min hex hi⟩
  have hkn : k ≤ n := by
    by_contra hlt
    exact hmin n (by omega) hn
  have hk1 : y0 + d * (k : ℚ) ≤ f + 1 := by
    cases k with
    | zero => simpa using h0
    | succ k =>
      have := hmin k (by omega)
      push_cast
      linarith
  have hmem : y0 + d * (k : ℚ) ∈ ((List.range (n + 1)).map fun i : ℕ => y0 + d * (i : ℚ)) ++ rest :=
    List.mem_append_left _ (List.mem_map.mpr ⟨k, by simp; omega, rfl⟩)
  obtain ⟨A, y, B, h1, h2, h3, h4, h5⟩ := C91_floor_unit f _ ⟨_, hmem, hk, hk1⟩
  have hle : ∀ i : ℕ, f < y0 + d * (i : ℚ) → y0 + d * (k : ℚ) ≤ y0 + d * (i : ℚ) := by
    intro i hi
    have : k ≤ i := by
      by_contra hlt
      exact hmin i (by omega) hi
    have : (k : ℚ) ≤ (i : ℚ) := by exact_mod_cast this
    nlinarith
  have hall : ∀ z ∈ ((List.range (n + 1)).map fun i : ℕ => y0 + d * (i : ℚ)) ++ rest, f < z → y0 + d * (k : ℚ) ≤ z := by
    intro z hz hfz
    rcases List.mem_append.mp hz with hz | hz
    · obtain ⟨i, -, rfl⟩ := List.mem_map.mp hz
      exact hle i hfz
    · obtain ⟨i, -, rfl⟩ := hrest z hz
      exact hle i hfz
  -- it is the one found, since it comes first
  have hyk : y = y0 + d * (k : ℚ) := by
    have hpre : ((List.range (n + 1)).map fun i : ℕ => y0 + d * (i : ℚ)) ++ rest =
        ((List.range k).map fun i : ℕ => y0 + d * (i : ℚ)) ++ (y0 + d * (k : ℚ)) :: (((List.range' (k + 1) (n - k)).map fun i : ℕ => y0 + d * (i : ℚ)) ++ rest) := by
      have : List.range (n + 1) = List.range k ++ k :: List.range' (k + 1) (n - k) := by
        rw [List.range_eq_range', List.range_eq_range', show n + 1 = k + ((n - k) + 1) by omega, ← List.range'_append_1, Nat.zero_add, List.range'_succ]
      rw [this]
      simp
    rw [hpre] at h2
    rcases List.append_eq_append_iff.mp h2 with ⟨C, hC, hC'⟩ | ⟨C, hC, hC'⟩
    · cases C with
      | nil => simp only [List.nil_append, List.cons.injEq] at hC'; exact hC'.1.symm
      | cons c C =>
        simp only [List.cons_append, List.cons.injEq] at hC'
        obtain ⟨rfl, -⟩ := hC'
        exact absurd ⟨hk, hk1⟩ (h5 _ (by rw [hC]; simp))
    · cases C with
      | nil => simp only [List.nil_append, List.cons.injEq] at hC'; exact hC'.1
      | cons c C =>
        simp only [List.cons_append, List.cons.injEq] at hC'
        obtain ⟨rfl, -⟩ := hC'
        have : y ∈ (List.range k).map fun i : ℕ => y0 + d * (i : ℚ) := by rw [hC]; simp
        obtain ⟨i, hi, rfl⟩ := List.mem_map.mp this
        exact absurd h3 (hmin i (List.mem_range.mp hi))
  exact ⟨y, h1, h3, fun z hz hfz => by rw [hyk]; exact hall z hz hfz⟩

example : floorLayer (3 / 10) ([1 / 4, 1 / 2, 3 / 4] ++ [1 / 4, 1 / 2, 3 / 4]) = .ok (1 / 2) := by decide +kernel

/-- **C91 fails** for layers further apart than one unit (a layer below the floor although another one is above it), for other orders (not the
lowest one), and a layer exactly at the floor is passed over. -/
theorem C91_floor_counterexample :
    floorLayer (1 / 2) [0, 3, 6] = .ok 0 ∧ floorLayer 0 [3 / 4, 1 / 4] = .ok (3 / 4) ∧ floorLayer 1 [0, 1, 2] = .ok 2 := by
  refine ⟨?_, ?_, ?_⟩ <;> decide +kernel

/-- `y` lies `n` whole units away from the unit above the floor: in the unit `(f + n, f + n + 1]` or in `(f - n, f - n + 1]`. -/
def UnitsFrom (f y : ℚ) (n : ℕ) : Prop := (f + n < y ∧ y ≤ f + n + 1) ∨ (f - n < y ∧ y ≤ f - n + 1)

theorem unitsFrom_iff (f y : ℚ) (n : ℕ) : UnitsFrom f y n ↔ floorMeasure f y = n := by
  unfold UnitsFrom floorMeasure
  rw [abs_eq (Nat.cast_nonneg n)]
  have a1 : ⌈y - f⌉ - 1 = (n : ℤ) ↔ ⌈y - f⌉ = (n : ℤ) + 1 := by omega
  have a2 : ⌈y - f⌉ - 1 = -(n : ℤ) ↔ ⌈y - f⌉ = -(n : ℤ) + 1 := by omega
  rw [a1, a2, Int.ceil_eq_iff, Int.ceil_eq_iff]
  push_cast
  constructor
  · rintro (⟨h1, h2⟩ | ⟨h1, h2⟩)
    · exact .inl ⟨by linarith, by linarith⟩
    · exact .inr ⟨by linarith, by linarith⟩
  · rintro (⟨h1, h2⟩ | ⟨h1, h2⟩)
    · exact .inl ⟨by linarith, by linarith⟩
    · exact .inr ⟨by linarith, by linarith⟩

theorem floorMeasure_nat (f y : ℚ) : ∃ n : ℕ, floorMeasure f y = n := ⟨(floorMeasure f y).toNat, (Int.toNat_of_nonneg (abs_nonneg _)).symm⟩

theorem floorMeasure_le_iff (f y : ℚ) (m : ℤ) : m < floorMeasure f y ↔ ∃ k : ℕ, m < k ∧ UnitsFrom f y k := by
  obtain ⟨n, hn⟩ := floorMeasure_nat f y
  constructor
  · intro h; exact ⟨n, by rw [← hn]; exact h, (unitsFrom_iff f y n).mpr hn⟩
  · rintro ⟨k, h1, h2⟩; rw [(unitsFrom_iff f y k).mp h2]; exact h1

/-- **C91, the floor layer as coded**, for all floors and heights in any order: the first of the heights fewest whole units away from the unit above the floor. -/
theorem C91_floor_as_coded (f : ℚ) (ys : List ℚ) (y : ℚ) : floorLayer f ys = .ok y ↔
    ∃ (A B : List ℚ) (n : ℕ), ys = A ++ y :: B ∧ UnitsFrom f y n ∧ (∀ a ∈ A, ∃ k : ℕ, n < k ∧ UnitsFrom f a k) ∧ ∀ b ∈ B, ∃ k : ℕ, n ≤ k ∧ UnitsFrom f b k := by
  have conv : ∀ (n : ℕ) (a : ℚ), (∃ k : ℕ, n < k ∧ UnitsFrom f a k) ↔ (n : ℤ) < floorMeasure f a := by
    intro n a
    rw [floorMeasure_le_iff]
    simp only [Nat.cast_lt]
  have conv' : ∀ (n : ℕ) (a : ℚ), (∃ k : ℕ, n ≤ k ∧ UnitsFrom f a k) ↔ (n : ℤ) ≤ floorMeasure f a := by
    intro n a
    rw [← Int.sub_one_lt_iff, floorMeasure_le_iff]
    constructor
    · rintro ⟨k, h1, h2⟩; exact ⟨k, by omega, h2⟩
    · rintro ⟨k, h1, h2⟩; exact ⟨k, by omega, h2⟩
  simp only [conv, conv']
  simp only [unitsFrom_iff]
  cases ys with
  | nil =>
    constructor
    · intro h; cases h
    · rintro ⟨A, B, n, h, -⟩; simp at h
  | cons a ys =>
    obtain ⟨A, r, B, h1, h2, h3, h4⟩ := argmin_spec (floorMeasure f) a ys
    have hr : floorLayer f (a :: ys) = .ok r := by
      unfold floorLayer
      simp only
      rw [h1]
    rw [hr]
    constructor
    · intro h
      obtain rfl := Except.ok.inj h
      obtain ⟨n, hn⟩ := floorMeasure_nat f r
      exact ⟨A, B, n, h2, hn, fun a ha => by rw [← hn]; exact h3 a ha, fun b hb => by rw [← hn]; exact h4 b hb⟩
    · rintro ⟨A', B', n, g1, g2, g3, g4⟩
      rw [g1] at h2
      congr 1
      rcases List.append_eq_append_iff.mp h2 with ⟨C, hC, hC'⟩ | ⟨C, hC, hC'⟩
      · cases C with
        | nil => simp only [List.nil_append, List.cons.injEq] at hC'; exact hC'.1.symm
        | cons c C =>
          simp only [List.cons_append, List.cons.injEq] at hC'
          obtain ⟨rfl, hB⟩ := hC'
          have e1 := h3 y (by rw [hC]; simp)
          have e2 := g4 r (by rw [hB]; simp)
          omega
      · cases C with
        | nil => simp only [List.nil_append, List.cons.injEq] at hC'; exact hC'.1
        | cons c C =>
          simp only [List.cons_append, List.cons.injEq] at hC'
          obtain ⟨rfl, hB⟩ := hC'
          have e1 := g3 r (by rw [hC]; simp)
          have e2 := h4 y (by rw [hB]; simp)
          omega

/-- **C91, exact condition** for maps whose first column goes up: with `w` the highest layer not above the floor and `z` the lowest one above it, the
floor layer is `z` exactly if the distance of `z` in whole units, rounded up, is at most the distance of `w`, rounded down, plus one. -/
theorem C91_floor_iff (f w z : ℚ) (P Q rest : List ℚ) (hs : (P ++ w :: z :: Q).Pairwise (· < ·)) (hw : w ≤ f) (hz : f < z) (hrest : ∀ y ∈ rest, y ∈ P ++ w :: z :: Q) :
    floorLayer f ((P ++ w :: z :: Q) ++ rest) = .ok z ↔ ⌈z - f⌉ ≤ 1 + ⌊f - w⌋ := by
  have up : ∀ y, f < y → floorMeasure f y = ⌈y - f⌉ - 1 := by
    intro y hy
    unfold floorMeasure
    have : 0 < ⌈y - f⌉ := Int.ceil_pos.mpr (by linarith)
    exact abs_of_nonneg (by omega)
  have down : ∀ y, y ≤ f → floorMeasure f y = 1 + ⌊f - y⌋ := by
    intro y hy
    unfold floorMeasure
    have e : ⌈y - f⌉ = -⌊f - y⌋ := by rw [← Int.ceil_neg, neg_sub]
    have : 0 ≤ ⌊f - y⌋ := Int.floor_nonneg.mpr (by linarith)
    rw [e, abs_of_nonpos (by omega)]
    omega
  rw [List.pairwise_append, List.pairwise_cons, List.pairwise_cons] at hs
  obtain ⟨-, ⟨hwz, hzQ, -⟩, hP⟩ := hs
  have hPw : ∀ p ∈ P, p < w := fun p hp => hP p hp w (by simp)
  have mz := up z hz
  have mw := down w hw
  have mP : ∀ p ∈ P, floorMeasure f w ≤ floorMeasure f p := by
    intro p hp
    rw [mw, down p (by linarith [hPw p hp])]
    have := Int.floor_le_floor (show f - w ≤ f - p by linarith [hPw p hp])
    omega
  have mQ : ∀ q ∈ Q, floorMeasure f z ≤ floorMeasure f q := by
    intro q hq
    rw [mz, up q (lt_trans hz (hzQ q hq))]
    have := Int.ceil_le_ceil (show z - f ≤ q - f by linarith [hzQ q hq])
    omega
  rw [C91_floor_as_coded]
  simp only [unitsFrom_iff]
  constructor
  · rintro ⟨A, B, n, h1, h2, h3, h4⟩
    -- w is in front of or behind z in the split
    have hmem : w ∈ A ++ z :: B := by rw [← h1]; simp
    have hge : floorMeasure f z ≤ floorMeasure f w := by
      simp only [List.mem_append, List.mem_cons] at hmem
      rcases hmem with h | h | h
      · obtain ⟨k, hk, hk'⟩ := h3 w h
        omega
      · exact absurd h (ne_of_lt (lt_of_le_of_lt hw hz))
      · obtain ⟨k, hk, hk'⟩ := h4 w h
        omega
    -- the first z comes after w, so that w is not as near as z
    by_contra hlt
    have heq : floorMeasure f z = floorMeasure f w := by omega
    have hpre : w ∈ A := by
      have h1' : P ++ w :: (z :: Q ++ rest) = A ++ z :: B := by rw [← h1]; simp
      rcases List.append_eq_append_iff.mp h1' with ⟨C, hC, hC'⟩ | ⟨C, hC, hC'⟩
      · cases C with
        | nil => simp only [List.nil_append, List.cons.injEq] at hC'; exact absurd hC'.1 (ne_of_lt (lt_of_le_of_lt hw hz))
        | cons c C =>
          simp only [List.cons_append, List.cons.injEq] at hC'
          rw [hC, hC'.1]; simp
      · cases C with
        | nil => simp only [List.nil_append, List.cons.injEq] at hC'; exact absurd hC'.1.symm (ne_of_lt (lt_of_le_of_lt hw hz))
        | cons c C =>
          simp only [List.cons_append, List.cons.injEq] at hC'
          have : z ∈ P := by rw [hC, hC'.1]; simp
          have := hPw z this
          linarith
    obtain ⟨k, hk, hk'⟩ := h3 w hpre
    omega
  · intro h
    obtain ⟨n, hn⟩ := floorMeasure_nat f z
    have nat : ∀ y, ∃ k : ℕ, floorMeasure f y = k := floorMeasure_nat f
    have low : ∀ a ∈ P ++ [w], floorMeasure f z < floorMeasure f a := by
      intro a ha
      rcases List.mem_append.mp ha with ha | ha
      · have := mP a ha
        omega
      · rw [List.mem_singleton] at ha
        subst ha
        omega
    refine ⟨P ++ [w], Q ++ rest, n, by simp, hn, ?_, ?_⟩
    · intro a ha
      obtain ⟨k, hk⟩ := nat a
      have := low a ha
      exact ⟨k, by omega, hk⟩
    · intro b hb
      obtain ⟨k, hk⟩ := nat b
      refine ⟨k, ?_, hk⟩
      have all : ∀ y ∈ P ++ w :: z :: Q, floorMeasure f z ≤ floorMeasure f y := by
        intro y hy
        simp only [List.mem_append, List.mem_cons] at hy
        rcases hy with h | rfl | rfl | h
        · exact (low y (by simp [h])).le
        · exact (low y (by simp)).le
        · exact le_rfl
        · exact mQ y h
      have : floorMeasure f z ≤ floorMeasure f b := by
        rcases List.mem_append.mp hb with hb | hb
        · exact mQ b hb
        · exact all b (hrest b hb)
      omega

/-- Layers three units apart with the floor between them: the lower one is taken at `1/2`, the upper one at `2`. -/
example : floorLayer (1 / 2) ([0, 3, 6] ++ [0, 3, 6]) = .ok 0 ∧ ¬ ⌈(3 : ℚ) - 1 / 2⌉ ≤ 1 + ⌊(1 / 2 : ℚ) - 0⌋ ∧
    floorLayer 2 ([0, 3, 6] ++ [0, 3, 6]) = .ok 3 ∧ ⌈(3 : ℚ) - 2⌉ ≤ 1 + ⌊(2 : ℚ) - 0⌋ ∧ ([] ++ 0 :: 3 :: [6] : List ℚ).Pairwise (· < ·) := by
  refine ⟨?_, ?_, ?_, ?_, ?_⟩ <;> decide +kernel

/-! ## C92 -/

/-- In the box of length `B` of the map the search finds the edges `e` of a droplet, relative to the box, or no droplet. -/
def ShowsEdges (o : Interface.Opts) (radius : ℚ) (floor : Option ℚ) (B : ℚ) (f : Flow) (e : Option (ℚ × ℚ)) : Prop :=
  ∃ s h, cells f.data "M" = .ok s ∧ boxSize f = some (B, h) ∧
    spreadingEdges s (some (B, h)) radius floor { o with longest := true } = .ok (e.map fun p => (wrap B p.1, wrap B p.2))

/-- **C92.** From maps to the spreading curve: if the search finds the droplet with true edges `hist` (`none`: no droplet) in maps with a box of length
`B`, and the droplet fits into the box, moves by less than half a box between maps and crosses the boundary with at most one edge at a time, the
radii written are half of the true width and the edges are the true edges up to one fixed number of box lengths. -/
theorem C92_radius_from_maps {B : ℚ} (hB : 0 < B) (dt t0 : ℚ) (save flag : Bool) (radius : ℚ) (floor : Option ℚ) (o : Interface.Opts)
    (maps : List (Flow × Text)) (hist : List (Option (ℚ × ℚ))) (hs : List.Forall₂ (fun m e => ShowsEdges o radius floor B m.1 e) maps hist)
    (hfit : ∀ p ∈ hist.reduceOption, Fits B p) (hslow : hist.reduceOption.IsChain (Slow B)) (hcross : hist.reduceOption.IsChain (AtMostOneCrosses B)) :
    ∃ (k : ℤ) (st : State), collectMaps dt t0 save flag radius floor o maps = .ok st ∧
      st.rows.map (fun r => (r.left, r.right, r.radius)) = hist.reduceOption.map fun p => (p.1 - k * B, p.2 - k * B, (p.2 - p.1) / 2) := by
  have hframes : ∃ frames, (maps.mapM fun m => frameOf m.1 m.2 radius floor o) = .ok frames ∧ Observes B frames hist := by
    clear hfit hslow hcross
    induction hs with
    | nil => exact ⟨[], rfl, rfl, by simp⟩
    | @cons m e ms es h _ ih =>
      obtain ⟨frames, h1, h2, h3⟩ := ih
      obtain ⟨s, y, g1, g2, g3⟩ := h
      have hf : frameOf m.1 m.2 radius floor o = .ok ⟨B, e.map fun p => (wrap B p.1, wrap B p.2), m.2⟩ := by
        unfold frameOf
        rw [g1, Gmx.ok_bind, g2, g3, Gmx.ok_bind]
        cases e <;> rfl
      refine ⟨⟨B, e.map fun p => (wrap B p.1, wrap B p.2), m.2⟩ :: frames, ?_, ?_, ?_⟩
      · rw [List.mapM_cons, hf, Gmx.ok_bind, h1]
        rfl
      · simp only [List.map_cons, h2]
      · intro f hf
        rcases List.mem_cons.mp hf with rfl | hf
        · rfl
        · exact h3 f hf
  obtain ⟨frames, h1, h2⟩ := hframes
  obtain ⟨k, hk⟩ := C62_edges_and_radius hB dt t0 save flag frames hist h2 hfit hslow hcross
  refine ⟨k, collect dt t0 save flag frames, ?_, hk⟩
  unfold collectMaps
  rw [h1]
  rfl

/-- A droplet on a map of 5 x 2 bins that is not there yet, lands, and spreads across the boundary of the box. -/
def landingMap (m : List ℚ) : Flow :=
  ⟨[("X", [0, 0, 1, 1, 2, 2, 3, 3, 4, 4]), ("Y", [0, 1, 0, 1, 0, 1, 0, 1, 0, 1]), ("M", m)], { shape := some (5, 2), spacing := some (1, 1) }⟩

example : ShowsEdges { cutoff := some (1 / 2) } 1 (some (-1 / 2)) 5 (landingMap [1, 1, 0, 0, 1, 1, 1, 1, 1, 1]) (some (2, 5)) :=
  ⟨[⟨0, 0, 1, [0, 1]⟩, ⟨0, 1, 1, [1, 1]⟩, ⟨1, 0, 0, [0, 0]⟩, ⟨1, 1, 0, [1, 0]⟩, ⟨2, 0, 1, [0, 1]⟩, ⟨2, 1, 1, [1, 1]⟩, ⟨3, 0, 1, [0, 1]⟩, ⟨3, 1, 1, [1, 1]⟩,
    ⟨4, 0, 1, [0, 1]⟩, ⟨4, 1, 1, [1, 1]⟩], 2, by decide +kernel, by decide +kernel, by decide +kernel⟩

example : (collectMaps 10 0 false false 1 (some (-1 / 2)) { cutoff := some (1 / 2) }
    [(landingMap [0, 0, 0, 0, 0, 0, 0, 0, 0, 0], ['a']), (landingMap [0, 0, 0, 0, 0, 0, 1, 1, 1, 1], ['b']),
     (landingMap [1, 1, 0, 0, 1, 1, 1, 1, 1, 1], ['c'])]).map (fun st => st.rows.map fun r => (r.time, r.left, r.right, r.radius)) =
    .ok [(0, 3, 4, 1 / 2), (10, 2, 5, 3 / 2)] := by decide +kernel

end Strata.Spreading
