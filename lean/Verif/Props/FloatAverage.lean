import Verif.Model.FloatAverage
import Verif.Props.SimpleAverage
import Verif.Proofs.Ieee
/-!
# Rounding errors of averages: C126
-/
namespace Strata.FloatAverage
open Strata Strata.Flow Strata.Average Strata.Gmx Strata.Simple Strata.SimpleAverage

/-! ## Specification -/

/-- Every result is rounded with a relative error of at most `u`. -/
def Rounds (u : ℚ) (fl : ℚ → ℚ) : Prop := ∀ x, |fl x - x| ≤ u * |x|

/-- `s` is obtained from the numbers by rounded additions in some order. -/
inductive Added (fl : ℚ → ℚ) : List ℚ → ℚ → Prop
  | single (x : ℚ) : Added fl [x] x
  | add {xs ys : List ℚ} {s t : ℚ} : Added fl xs s → Added fl ys t → Added fl (xs ++ ys) (fl (s + t))
  | perm {xs ys : List ℚ} {s : ℚ} : xs.Perm ys → Added fl xs s → Added fl ys s

/-- The function adds all numbers, in some order. -/
def Sums (fl : ℚ → ℚ) (sum : List ℚ → ℚ) : Prop := ∀ xs, xs ≠ [] → Added fl xs (sum xs)

/-! ## Lemmas -/

theorem Added.ne_nil {fl : ℚ → ℚ} {xs : List ℚ} {s : ℚ} (h : Added fl xs s) : xs ≠ [] := by
  induction h with
  | single x => simp
  | add _ _ h _ => simp [h]
  | perm hp _ ih => intro e; subst e; exact ih hp.eq_nil

theorem pow_mono {u : ℚ} (hu : 0 ≤ u) {a b : ℕ} (h : a ≤ b) : (1 + u) ^ a ≤ (1 + u) ^ b := pow_le_pow_right₀ (by linarith) h

theorem one_le_pow' {u : ℚ} (hu : 0 ≤ u) (a : ℕ) : 1 ≤ (1 + u) ^ a := one_le_pow₀ (by linarith)

theorem abs_sum_le (xs : List ℚ) : |xs.sum| ≤ (xs.map fun x => |x|).sum := by
  induction xs with
  | nil => simp
  | cons x xs ih =>
    rw [List.sum_cons, List.map_cons, List.sum_cons]
    exact le_trans (abs_add_le _ _) (by linarith)

theorem abs_nonneg_sum (xs : List ℚ) : 0 ≤ (xs.map fun x => |x|).sum := List.sum_nonneg (by
  intro a ha
  obtain ⟨x, -, rfl⟩ := List.mem_map.mp ha
  exact abs_nonneg x)

/-- The error of a sum. -/
theorem Added.error {u : ℚ} (hu : 0 ≤ u) {fl : ℚ → ℚ} (hfl : Rounds u fl) {xs : List ℚ} {s : ℚ} (h : Added fl xs s) :
    |s - xs.sum| ≤ ((1 + u) ^ (xs.length - 1) - 1) * (xs.map fun x => |x|).sum := by
  induction h with
  | single x => simp
  | @add xs ys s t hx hy ihx ihy =>
    have h1 : 0 < xs.length := List.length_pos_iff.mpr hx.ne_nil
    have h2 : 0 < ys.length := List.length_pos_iff.mpr hy.ne_nil
    have ha := abs_nonneg_sum xs
    have hb := abs_nonneg_sum ys
    have hsa := abs_sum_le xs
    have hsb := abs_sum_le ys
    rw [List.sum_append, List.map_append, List.sum_append, List.length_append]
    generalize hE : (1 + u) ^ (xs.length + ys.length - 2) = E
    have hpow : (1 + u) ^ (xs.length + ys.length - 1) = E * (1 + u) := by
      rw [← hE, ← pow_succ]
      congr 1
      omega
    have hx' : |s - xs.sum| ≤ (E - 1) * (xs.map fun x => |x|).sum := by
      refine le_trans ihx (mul_le_mul_of_nonneg_right ?_ ha)
      rw [← hE]
      have := pow_mono hu (show xs.length - 1 ≤ xs.length + ys.length - 2 by omega)
      linarith
    have hy' : |t - ys.sum| ≤ (E - 1) * (ys.map fun x => |x|).sum := by
      refine le_trans ihy (mul_le_mul_of_nonneg_right ?_ hb)
      rw [← hE]
      have := pow_mono hu (show ys.length - 1 ≤ xs.length + ys.length - 2 by omega)
      linarith
    generalize xs.sum = X at *
    generalize ys.sum = Y at *
    generalize (xs.map fun x => |x|).sum = A at *
    generalize (ys.map fun x => |x|).sum = B at *
    have hf := hfl (s + t)
    have hst : |s + t - (X + Y)| ≤ (E - 1) * (A + B) := by
      have : s + t - (X + Y) = (s - X) + (t - Y) := by ring
      rw [this]
      refine le_trans (abs_add_le _ _) ?_
      linarith
    have hst' : |s + t| ≤ E * (A + B) := by
      have : s + t = (s + t - (X + Y)) + (X + Y) := by ring
      rw [this]
      refine le_trans (abs_add_le _ _) ?_
      have := abs_add_le X Y
      linarith
    have : fl (s + t) - (X + Y) = (fl (s + t) - (s + t)) + (s + t - (X + Y)) := by ring
    rw [this]
    refine le_trans (abs_add_le _ _) ?_
    rw [hpow]
    have := mul_le_mul_of_nonneg_left hst' hu
    linarith
  | @perm xs ys s hp _ ih =>
    rw [← hp.sum_eq, ← (hp.map _).sum_eq, ← hp.length_eq]
    exact ih

theorem Rounds.zero {u : ℚ} {fl : ℚ → ℚ} (hfl : Rounds u fl) : fl 0 = 0 := by
  have := hfl 0
  rw [abs_zero, mul_zero, sub_zero] at this
  exact abs_nonpos_iff.mp this

theorem Rounds.le {u : ℚ} {fl : ℚ → ℚ} (hfl : Rounds u fl) (x : ℚ) : |fl x| ≤ (1 + u) * |x| := by
  have h := hfl x
  have : fl x = (fl x - x) + x := by ring
  rw [this]
  refine le_trans (abs_add_le _ _) ?_
  linarith

/-- The numbers of a list of pairs, weighted and rounded, and the weights. -/
theorem sum_map_mul_le (V : ℚ) (ps : List (ℚ × ℚ)) (hV : ∀ p ∈ ps, |p.1| ≤ V) (hw : ∀ p ∈ ps, 0 ≤ p.2) :
    (ps.map fun p => |p.1 * p.2|).sum ≤ V * (ps.map fun p => p.2).sum := by
  induction ps with
  | nil => simp
  | cons p ps ih =>
    have h1 := hV p (by simp)
    have h2 := hw p (by simp)
    have := ih (fun q hq => hV q (by simp [hq])) (fun q hq => hw q (by simp [hq]))
    simp only [List.map_cons, List.sum_cons]
    rw [abs_mul, abs_of_nonneg h2]
    nlinarith

theorem rounded_products {u : ℚ} {fl : ℚ → ℚ} (hfl : Rounds u fl) (ps : List (ℚ × ℚ)) :
    |(ps.map fun p => fl (p.1 * p.2)).sum - (ps.map fun p => p.1 * p.2).sum| ≤ u * (ps.map fun p => |p.1 * p.2|).sum ∧
    (ps.map fun p => |fl (p.1 * p.2)|).sum ≤ (1 + u) * (ps.map fun p => |p.1 * p.2|).sum := by
  induction ps with
  | nil => simp
  | cons p ps ih =>
    simp only [List.map_cons, List.sum_cons]
    constructor
    · have := hfl (p.1 * p.2)
      have e : fl (p.1 * p.2) + (ps.map fun p => fl (p.1 * p.2)).sum - (p.1 * p.2 + (ps.map fun p => p.1 * p.2).sum) =
        (fl (p.1 * p.2) - p.1 * p.2) + ((ps.map fun p => fl (p.1 * p.2)).sum - (ps.map fun p => p.1 * p.2).sum) := by ring
      rw [e]
      refine le_trans (abs_add_le _ _) ?_
      linarith [ih.1]
    · have := hfl.le (p.1 * p.2)
      linarith [ih.2]

/-- The error of a rounded weighted mean with weights that are not negative. -/
theorem weighted_error {u : ℚ} (hu : 0 ≤ u) {fl : ℚ → ℚ} (hfl : Rounds u fl) (ps : List (ℚ × ℚ)) (s w V : ℚ)
    (hs : Added fl (ps.map fun p => fl (p.1 * p.2)) s) (hw : Added fl (ps.map fun p => p.2) w) (h0 : ∀ p ∈ ps, 0 ≤ p.2) (hV : ∀ p ∈ ps, |p.1| ≤ V)
    (hpos : 0 < (ps.map fun p => p.2).sum) (hphi : (1 + u) ^ (ps.length - 1) < 2) :
    0 < w ∧ |fl (s / w) - (ps.map fun p => p.1 * p.2).sum / (ps.map fun p => p.2).sum| ≤
      V * (((1 + u) ^ (ps.length + 1) - 1 + ((1 + u) ^ (ps.length - 1) - 1)) / (2 - (1 + u) ^ (ps.length - 1))) := by
  have hne : ps ≠ [] := by rintro rfl; simp at hpos
  have hlen : 0 < ps.length := List.length_pos_iff.mpr hne
  have e1 := hs.error hu hfl
  have e2 := hw.error hu hfl
  rw [List.length_map, List.map_map] at e1 e2
  have habs : (List.map ((fun x => |x|) ∘ fun p : ℚ × ℚ => p.2) ps).sum = (ps.map fun p => p.2).sum := by
    congr 1
    apply List.map_congr_left
    intro p hp
    exact abs_of_nonneg (h0 p hp)
  rw [habs] at e2
  have hc : (List.map ((fun x => |x|) ∘ fun p : ℚ × ℚ => fl (p.1 * p.2)) ps) = ps.map fun p => |fl (p.1 * p.2)| := rfl
  rw [hc] at e1
  obtain ⟨r1, r2⟩ := rounded_products hfl ps
  have hVW := sum_map_mul_le V ps hV h0
  have hA := abs_sum_le (ps.map fun p => p.1 * p.2)
  rw [List.map_map] at hA
  have hA' : |(ps.map fun p => p.1 * p.2).sum| ≤ (ps.map fun p => |p.1 * p.2|).sum := hA
  clear hA
  have hE2 : (1 + u) ^ (ps.length + 1) = (1 + u) ^ (ps.length - 1) * (1 + u) * (1 + u) := by
    rw [mul_assoc, ← sq, ← pow_add]
    congr 1
    omega
  rw [hE2]
  have hE1 := one_le_pow' hu (ps.length - 1)
  generalize (1 + u) ^ (ps.length - 1) = E at *
  generalize (ps.map fun p => fl (p.1 * p.2)).sum = S1 at *
  generalize (ps.map fun p => p.1 * p.2).sum = S at *
  generalize (ps.map fun p => |fl (p.1 * p.2)|).sum = A1 at *
  generalize (ps.map fun p => |p.1 * p.2|).sum = A at *
  generalize (ps.map fun p => p.2).sum = W at *
  have hw1 := abs_le.mp e2
  have hwpos : (2 - E) * W ≤ w := by linarith
  have hden : 0 < 2 - E := by linarith
  have hw0 : 0 < w := lt_of_lt_of_le (mul_pos hden hpos) hwpos
  refine ⟨hw0, ?_⟩
  have hV0 : 0 ≤ V := by
    obtain ⟨p, hp⟩ := List.exists_mem_of_ne_nil _ hne
    exact le_trans (abs_nonneg _) (hV p hp)
  -- the numerator
  have hA0 : 0 ≤ A := le_trans (abs_nonneg _) hA'
  have hsS : |s - S| ≤ (E * (1 + u) - 1) * (V * W) := by
    have : s - S = (s - S1) + (S1 - S) := by ring
    rw [this]
    refine le_trans (abs_add_le _ _) ?_
    have h1 : (E - 1) * A1 ≤ (E - 1) * ((1 + u) * A) := mul_le_mul_of_nonneg_left r2 (by linarith)
    have h2 : (E * (1 + u) - 1) * A ≤ (E * (1 + u) - 1) * (V * W) := mul_le_mul_of_nonneg_left hVW (by nlinarith)
    nlinarith
  have hsabs : |s| ≤ E * (1 + u) * (V * W) := by
    have : s = (s - S) + S := by ring
    rw [this]
    refine le_trans (abs_add_le _ _) ?_
    nlinarith
  have ha : |S / W| ≤ V := by
    rw [abs_div, abs_of_pos hpos, div_le_iff₀ hpos]
    linarith
  -- the quotient
  have hq : |s / w - S / W| * w ≤ (E * (1 + u) - 1 + (E - 1)) * (V * W) := by
    have e : (s / w - S / W) * w = (s - S) - S / W * (w - W) := by
      field_simp
      ring
    rw [← abs_of_pos hw0, ← abs_mul, abs_of_pos hw0, e]
    refine le_trans (abs_sub _ _) ?_
    rw [abs_mul]
    have : |S / W| * |w - W| ≤ V * ((E - 1) * W) := mul_le_mul ha e2 (abs_nonneg _) hV0
    linarith
  have hf := hfl (s / w)
  have hfw : |fl (s / w) - s / w| * w ≤ u * (E * (1 + u) * (V * W)) := by
    have h1 : |s / w| * w = |s| := by rw [abs_div, abs_of_pos hw0]; field_simp
    have h2 := mul_le_mul_of_nonneg_right hf hw0.le
    rw [mul_assoc, h1] at h2
    exact le_trans h2 (mul_le_mul_of_nonneg_left hsabs hu)
  have htot : |fl (s / w) - S / W| * w ≤ (E * (1 + u) * (1 + u) - 1 + (E - 1)) * (V * W) := by
    have : fl (s / w) - S / W = (fl (s / w) - s / w) + (s / w - S / W) := by ring
    rw [this]
    have h3 := mul_le_mul_of_nonneg_right (abs_add_le (fl (s / w) - s / w) (s / w - S / W)) hw0.le
    refine le_trans h3 ?_
    rw [add_mul]
    nlinarith
  rw [← mul_div_assoc, le_div_iff₀ hden]
  have h4 : |fl (s / w) - S / W| * ((2 - E) * W) ≤ |fl (s / w) - S / W| * w := mul_le_mul_of_nonneg_left hwpos (abs_nonneg _)
  have h5 := le_trans h4 htot
  have h6 : (|fl (s / w) - S / W| * (2 - E)) * W ≤ (V * (E * (1 + u) * (1 + u) - 1 + (E - 1))) * W := by nlinarith
  exact le_of_mul_le_mul_right h6 hpos

/-! ## Double precision is such a rounding, and sums are such sums -/

theorem rounds_roundBits (p : ℕ) : Rounds (1 / 2 ^ p) (roundBits p) := by
  intro x
  unfold roundBits
  by_cases hx : x = 0
  · rw [if_pos hx, hx]; simp
  rw [if_neg hx]
  have hlog := (Bytes.log2Rat_spec |x| (abs_pos.mpr hx)).1
  generalize Bytes.log2Rat |x| = e at *
  have hpos : (0 : ℚ) < 2 ^ (e - p + 1) := zpow_pos (by norm_num) _
  have h := Bytes.pyRound_near' (x / 2 ^ (e - p + 1))
  have e1 : (Average.pyRound (x / 2 ^ (e - p + 1)) : ℚ) * 2 ^ (e - p + 1) - x = ((Average.pyRound (x / 2 ^ (e - p + 1)) : ℚ) - x / 2 ^ (e - p + 1)) * 2 ^ (e - p + 1) := by
    rw [sub_mul, div_mul_cancel₀ _ hpos.ne']
  rw [e1, abs_mul, abs_of_pos hpos]
  have e2 : (2 : ℚ) ^ (e - p + 1) = 2 * (2 ^ e / 2 ^ p) := by
    rw [zpow_add₀ (by norm_num), zpow_sub₀ (by norm_num), zpow_one, zpow_natCast]
    ring
  calc _ ≤ 1 / 2 * (2 : ℚ) ^ (e - p + 1) := mul_le_mul_of_nonneg_right h hpos.le
    _ = 2 ^ e / 2 ^ p := by rw [e2]; ring
    _ ≤ |x| / 2 ^ p := div_le_div_of_nonneg_right hlog (by positivity)
    _ = 1 / 2 ^ p * |x| := by ring

theorem added_foldl (fl : ℚ → ℚ) (ys : List ℚ) : ∀ (xs : List ℚ) (s : ℚ), Added fl xs s → Added fl (xs ++ ys) (ys.foldl (fun s y => fl (s + y)) s) := by
  induction ys with
  | nil => intro xs s h; simpa using h
  | cons y ys ih =>
    intro xs s h
    have := ih (xs ++ [y]) (fl (s + y)) (h.add (Added.single y))
    rw [List.append_assoc] at this
    exact this

theorem sums_inOrder (fl : ℚ → ℚ) : Sums fl (inOrder fl) := by
  intro xs hne
  cases xs with
  | nil => exact absurd rfl hne
  | cons x xs => exact added_foldl fl xs [x] x (Added.single x)

theorem sums_pairwise (fl : ℚ → ℚ) (depth : ℕ) : Sums fl (pairwise fl depth) := by
  induction depth with
  | zero => exact sums_inOrder fl
  | succ depth ih =>
    intro xs hne
    unfold pairwise
    by_cases h : xs.length < 2
    · rw [if_pos h]; exact sums_inOrder fl xs hne
    · rw [if_neg h]
      have h1 := ih (xs.take (xs.length / 2)) (by
        intro e
        have := congrArg List.length e
        simp only [List.length_take, List.length_nil] at this
        omega)
      have h2 := ih (xs.drop (xs.length / 2)) (by
        intro e
        have := congrArg List.length e
        simp only [List.length_drop, List.length_nil] at this
        omega)
      have := h1.add h2
      rwa [List.take_append_drop] at this

/-! ## The functions -/

theorem sumArrays_eq (sum : List ℚ → ℚ) (n : ℕ) (f : Record → ℕ → ℚ) (ds : List Record) (hne : ds ≠ []) :
    sumArrays sum (ds.map fun d => (List.range n).map (f d)) = .ok ((List.range n).map fun t => sum (ds.map fun d => f d t)) := by
  cases ds with
  | nil => exact absurd rfl hne
  | cons d ds =>
    rw [List.map_cons, sumArrays, if_pos (by simp)]
    congr 1
    rw [List.length_map, List.length_range]
    apply List.map_congr_left
    intro t ht
    rw [← List.map_cons (f := fun d => (List.range n).map (f d)), List.map_map]
    congr 1
    apply List.map_congr_left
    intro e _
    exact getD_map_range _ _ _ (List.mem_range.mp ht)

theorem getAvg_eq (fl : ℚ → ℚ) (sum : List ℚ → ℚ) {ds : List Record} {n : ℕ} (hne : ds ≠ []) (h : ∀ d ∈ ds, HasFields d n) {l : Label}
    (hl : l ∈ ["X", "Y", "N", "T", "M", "U", "V"]) :
    getAvg fl sum ds l = .ok ((List.range n).map fun t => fl (sum (ds.map fun d => val d l t) / (ds.length : ℚ))) := by
  unfold getAvg
  rw [keys_eq h hl, ok_bind, sumArrays_eq sum n (fun d => val d l) ds hne, ok_bind, List.map_map]
  rfl

theorem weighted_eq (fl : ℚ → ℚ) {d : Record} {n : ℕ} (h : HasFields d n) {l w : Label} (hl : l ∈ ["X", "Y", "N", "T", "M", "U", "V"])
    (hw : w ∈ ["X", "Y", "N", "T", "M", "U", "V"]) : weighted fl l w d = .ok ((List.range n).map fun t => fl (val d l t * val d w t)) := by
  unfold weighted
  rw [key_eq h hl, key_eq h hw, ok_bind, ok_bind, if_pos (by simp), zipWith_map_range]

theorem getWeightedAvg_eq (fl : ℚ → ℚ) (sum : List ℚ → ℚ) {ds : List Record} {n : ℕ} (hne : ds ≠ []) (h : ∀ d ∈ ds, HasFields d n) {l w : Label}
    (hl : l ∈ ["X", "Y", "N", "T", "M", "U", "V"]) (hw : w ∈ ["X", "Y", "N", "T", "M", "U", "V"]) :
    getWeightedAvg fl sum ds l w = .ok ((List.range n).map fun t => quotient fl (sum (ds.map fun d => fl (val d l t * val d w t))) (sum (ds.map fun d => val d w t))) := by
  unfold getWeightedAvg
  rw [mapM_ok' _ _ _ fun d hd => weighted_eq fl (h d hd) hl hw, ok_bind, sumArrays_eq sum n (fun d t => fl (val d l t * val d w t)) ds hne, ok_bind,
    keys_eq h hw, ok_bind, sumArrays_eq sum n (fun d => val d w) ds hne, ok_bind, if_pos (by simp), zipWith_map_range]

/-- What the average is. -/
def avgOf (fl : ℚ → ℚ) (sum : List ℚ → ℚ) (ds : List Record) (d0 : Record) (n : ℕ) : Record :=
  [("X", (List.range n).map (val d0 "X")), ("Y", (List.range n).map (val d0 "Y")),
    ("M", (List.range n).map fun t => fl (sum (ds.map fun d => val d "M" t) / (ds.length : ℚ))),
    ("N", (List.range n).map fun t => fl (sum (ds.map fun d => val d "N" t) / (ds.length : ℚ))),
    ("U", (List.range n).map fun t => quotient fl (sum (ds.map fun d => fl (val d "U" t * val d "M" t))) (sum (ds.map fun d => val d "M" t))),
    ("V", (List.range n).map fun t => quotient fl (sum (ds.map fun d => fl (val d "V" t * val d "M" t))) (sum (ds.map fun d => val d "M" t))),
    ("T", (List.range n).map fun t => quotient fl (sum (ds.map fun d => fl (val d "T" t * val d "N" t))) (sum (ds.map fun d => val d "N" t)))]

theorem averageData_eq (fl : ℚ → ℚ) (sum : List ℚ → ℚ) (d0 : Record) (rest : List Record) (n : ℕ) (atol rtol : ℚ) (h : ∀ d ∈ d0 :: rest, HasFields d n)
    (hc : ∀ d ∈ rest, Close atol rtol n d0 d) :
    averageData fl sum (d0 :: rest) atol rtol = .ok (avgOf fl sum (d0 :: rest) d0 n) := by
  have hchk : rest.mapM (fun d => do checkCoord atol rtol d0 d "X"; checkCoord atol rtol d0 d "Y") = .ok (rest.map fun _ => ()) := by
    apply mapM_ok'
    intro d hd
    rw [(checkCoord_eq (h d0 (by simp)) (h d (by simp [hd])) atol rtol (by simp)).1 (hc d hd "X" (by simp)), ok_bind,
      (checkCoord_eq (h d0 (by simp)) (h d (by simp [hd])) atol rtol (by simp)).1 (hc d hd "Y" (by simp))]
  unfold averageData
  simp only
  rw [key_eq (h d0 (by simp)) (by simp), ok_bind, key_eq (h d0 (by simp)) (by simp), ok_bind, hchk, ok_bind, keys_eq h (by simp), ok_bind,
    sumArrays_eq sum n (fun d => val d "N") _ (by simp), ok_bind, keys_eq h (by simp), ok_bind, sumArrays_eq sum n (fun d => val d "M") _ (by simp), ok_bind,
    getAvg_eq fl sum (by simp) h (by simp), ok_bind, getAvg_eq fl sum (by simp) h (by simp), ok_bind, getWeightedAvg_eq fl sum (by simp) h (by simp) (by simp), ok_bind,
    getWeightedAvg_eq fl sum (by simp) h (by simp) (by simp), ok_bind, getWeightedAvg_eq fl sum (by simp) h (by simp) (by simp), ok_bind]
  rfl

/-! ## C126 -/

/-- The exact model is the one without rounding. -/
theorem C126_exact (ds : List Record) (atol rtol : ℚ) : averageData id List.sum ds atol rtol = SimpleAverage.averageData ds atol rtol := by
  have h1 : ∀ cs, sumArrays List.sum cs = SimpleAverage.sumArrays cs := by intro cs; cases cs <;> rfl
  have h2 : ∀ l, getAvg id List.sum ds l = SimpleAverage.getAvg ds l := by
    intro l; unfold getAvg SimpleAverage.getAvg; simp only [h1]; rfl
  have h3 : ∀ l w, getWeightedAvg id List.sum ds l w = SimpleAverage.getWeightedAvg ds l w := by
    intro l w; unfold getWeightedAvg SimpleAverage.getWeightedAvg; simp only [h1]; rfl
  unfold averageData SimpleAverage.averageData
  cases ds with
  | nil => rfl
  | cons d0 rest => simp only [h1, h2, h3]

theorem pow_bound {u : ℚ} (hu : 0 ≤ u) (m : ℕ) (h : (m : ℚ) * u ≤ 1 / 8) : (1 + u) ^ m - 1 ≤ 8 / 7 * ((m : ℚ) * u) := by
  have key : ∀ m : ℕ, (1 + u) ^ m * (1 - (m : ℚ) * u) ≤ 1 := by
    intro m
    induction m with
    | zero => simp
    | succ m ih =>
      have hp : 0 ≤ (1 + u) ^ m := by positivity
      have hm : (0 : ℚ) ≤ (m : ℚ) := Nat.cast_nonneg m
      rw [pow_succ]
      push_cast
      nlinarith [mul_nonneg hp (mul_nonneg (mul_nonneg hu hu) (by linarith : (0 : ℚ) ≤ (m : ℚ) + 1))]
  have hk := key m
  have h1 := one_le_pow' hu m
  generalize (1 + u) ^ m = E at *
  have hmu : 0 ≤ (m : ℚ) * u := by positivity
  generalize (m : ℚ) * u = x at *
  nlinarith

theorem quotient_error {u : ℚ} (hu : 0 ≤ u) {fl : ℚ → ℚ} (hfl : Rounds u fl) {sum : List ℚ → ℚ} (hsum : Sums fl sum) (ps : List (ℚ × ℚ)) (hne : ps ≠ []) (V : ℚ)
    (h0 : ∀ p ∈ ps, 0 ≤ p.2) (hV : ∀ p ∈ ps, |p.1| ≤ V) (hk : ((ps.length : ℚ) + 1) * u ≤ 1 / 8) :
    (0 < (ps.map fun p => p.2).sum → 0 < sum (ps.map fun p => p.2) ∧
      |fl (sum (ps.map fun p => fl (p.1 * p.2)) / sum (ps.map fun p => p.2)) - (ps.map fun p => p.1 * p.2).sum / (ps.map fun p => p.2).sum| ≤
        3 * ((ps.length : ℚ) + 1) * u * V) ∧
    ((ps.map fun p => p.2).sum = 0 → sum (ps.map fun p => p.2) = 0 ∧ sum (ps.map fun p => fl (p.1 * p.2)) = 0 ∧ (ps.map fun p => p.1 * p.2).sum = 0) := by
  have hlen : 0 < ps.length := List.length_pos_iff.mpr hne
  have hmu : ∀ m : ℕ, m ≤ ps.length + 1 → (m : ℚ) * u ≤ ((ps.length : ℚ) + 1) * u := by
    intro m hm
    have : (m : ℚ) ≤ (ps.length : ℚ) + 1 := by exact_mod_cast hm
    exact mul_le_mul_of_nonneg_right this hu
  have hV0 : 0 ≤ V := by
    obtain ⟨p, hp⟩ := List.exists_mem_of_ne_nil _ hne
    exact le_trans (abs_nonneg _) (hV p hp)
  constructor
  · intro hpos
    have b1 := pow_bound hu (ps.length - 1) (le_trans (hmu _ (by omega)) hk)
    have b2 := pow_bound hu (ps.length + 1) (le_trans (hmu _ le_rfl) hk)
    have b1' := hmu (ps.length - 1) (by omega)
    have b2' := hmu (ps.length + 1) le_rfl
    have hphi : (1 + u) ^ (ps.length - 1) < 2 := by linarith
    obtain ⟨hw, he⟩ := weighted_error hu hfl ps _ _ V (hsum _ (by simpa using hne)) (hsum _ (by simpa using hne)) h0 hV hpos hphi
    refine ⟨hw, le_trans he ?_⟩
    have o1 := one_le_pow' hu (ps.length - 1)
    have o2 := one_le_pow' hu (ps.length + 1)
    generalize (1 + u) ^ (ps.length - 1) = E at *
    generalize (1 + u) ^ (ps.length + 1) = G at *
    generalize hx : ((ps.length : ℚ) + 1) * u = x at *
    have hxx : 3 * ((ps.length : ℚ) + 1) * u * V = V * (3 * x) := by rw [← hx]; ring
    rw [hxx]
    apply mul_le_mul_of_nonneg_left _ hV0
    rw [div_le_iff₀ (by linarith)]
    have : G - 1 + (E - 1) ≤ 16 / 7 * x := by linarith
    have : 6 / 7 ≤ 2 - E := by linarith
    nlinarith
  · intro hz
    have hall : ∀ p ∈ ps, p.2 = 0 := by
      intro p hp
      have hle : p.2 ≤ (ps.map fun p => p.2).sum := List.single_le_sum (by
        intro x hx
        obtain ⟨q, hq, rfl⟩ := List.mem_map.mp hx
        exact h0 q hq) _ (List.mem_map.mpr ⟨p, hp, rfl⟩)
      exact le_antisymm (by linarith) (h0 p hp)
    have zero : ∀ xs : List ℚ, xs ≠ [] → (∀ x ∈ xs, x = 0) → sum xs = 0 ∧ xs.sum = 0 := by
      intro xs hx hx0
      have he := (hsum xs hx).error hu hfl
      have hs : xs.sum = 0 := List.sum_eq_zero hx0
      have ha : (xs.map fun x => |x|).sum = 0 := by
        apply List.sum_eq_zero
        intro a ha
        obtain ⟨x, hxm, rfl⟩ := List.mem_map.mp ha
        rw [hx0 x hxm, abs_zero]
      rw [hs, ha, mul_zero, sub_zero] at he
      exact ⟨abs_nonpos_iff.mp he, hs⟩
    refine ⟨(zero _ (by simpa using hne) ?_).1, (zero _ (by simpa using hne) ?_).1, (zero _ (by simpa using hne) ?_).2⟩
    · intro x hx
      obtain ⟨p, hp, rfl⟩ := List.mem_map.mp hx
      exact hall p hp
    · intro x hx
      obtain ⟨p, hp, rfl⟩ := List.mem_map.mp hx
      rw [hall p hp, mul_zero, hfl.zero]
    · intro x hx
      obtain ⟨p, hp, rfl⟩ := List.mem_map.mp hx
      rw [hall p hp, mul_zero]

theorem mean_error {u : ℚ} (hu : 0 ≤ u) {fl : ℚ → ℚ} (hfl : Rounds u fl) {sum : List ℚ → ℚ} (hsum : Sums fl sum) (xs : List ℚ) (hne : xs ≠ [])
    (h0 : ∀ x ∈ xs, 0 ≤ x) (c : ℚ) (hc : 0 < c) (hk : (xs.length : ℚ) * u ≤ 1 / 8) :
    |fl (sum xs / c) - xs.sum / c| ≤ 8 / 7 * ((xs.length : ℚ) * u) * (xs.sum / c) := by
  have he := (hsum xs hne).error hu hfl
  have ha : (xs.map fun x => |x|).sum = xs.sum := by
    conv_rhs => rw [← List.map_id xs]
    congr 1
    apply List.map_congr_left
    intro x hx
    exact abs_of_nonneg (h0 x hx)
  rw [ha] at he
  have hS : 0 ≤ xs.sum := List.sum_nonneg h0
  have hpow : (1 + u) ^ xs.length = (1 + u) ^ (xs.length - 1) * (1 + u) := by
    rw [← pow_succ]
    congr 1
    have := List.length_pos_iff.mpr hne
    omega
  have hb := pow_bound hu xs.length hk
  rw [hpow] at hb
  have hE := one_le_pow' hu (xs.length - 1)
  generalize (1 + u) ^ (xs.length - 1) = E at *
  generalize sum xs = s at *
  generalize xs.sum = S at *
  have hf := hfl (s / c)
  have h1 : |s / c - S / c| ≤ (E - 1) * (S / c) := by
    rw [← sub_div, abs_div, abs_of_pos hc, ← mul_div_assoc]
    exact div_le_div_of_nonneg_right he hc.le
  have hSc : 0 ≤ S / c := div_nonneg hS hc.le
  generalize s / c = a at *
  generalize S / c = b at *
  have h2 : |a| ≤ E * b := by
    have : a = (a - b) + b := by ring
    rw [this]
    refine le_trans (abs_add_le _ _) ?_
    rw [abs_of_nonneg hSc]
    linarith
  have : fl a - b = (fl a - a) + (a - b) := by ring
  rw [this]
  refine le_trans (abs_add_le _ _) ?_
  have h3 := mul_le_mul_of_nonneg_left h2 hu
  have h4 := mul_le_mul_of_nonneg_right hb hSc
  nlinarith

/-- **C126.** The average of `k` maps computed with any rounding of relative error at most `u` and additions in any order, with masses and numbers that
are not negative and `(k + 1) u ≤ 1/8`: it succeeds whenever the exact one does, the coordinates are the same, masses and numbers have a relative error of
at most `2 k u`, velocities and temperatures differ by at most `3 (k + 1) u` times the largest value averaged, and are exactly 0 in bins without weight. -/
theorem C126_average_errors (u : ℚ) (hu : 0 ≤ u) (fl : ℚ → ℚ) (hfl : Rounds u fl) (sum : List ℚ → ℚ) (hsum : Sums fl sum)
    (d0 : Record) (rest : List Record) (n : ℕ) (atol rtol : ℚ) (h : ∀ d ∈ d0 :: rest, HasFields d n) (hc : ∀ d ∈ rest, Close atol rtol n d0 d)
    (hpos : ∀ d ∈ d0 :: rest, ∀ l ∈ ["M", "N"], ∀ t, t < n → 0 ≤ val d l t) (k : ℕ) (hkk : (d0 :: rest).length = k) (hk : ((k : ℚ) + 1) * u ≤ 1 / 8) :
    ∃ r r', SimpleAverage.averageData (d0 :: rest) atol rtol = .ok r ∧ averageData fl sum (d0 :: rest) atol rtol = .ok r' ∧ names r' = names r ∧
      (∀ c ∈ r', c.2.length = n) ∧ ∀ t, t < n → val r' "X" t = val r "X" t ∧ val r' "Y" t = val r "Y" t ∧
        (∀ l ∈ ["M", "N"], |val r' l t - val r l t| ≤ 2 * k * u * val r l t) ∧
        (∀ p ∈ [("U", "M"), ("V", "M"), ("T", "N")], ∀ V : ℚ, (∀ d ∈ d0 :: rest, |val d p.1 t| ≤ V) →
          |val r' p.1 t - val r p.1 t| ≤ 3 * (k + 1) * u * V ∧ ((∀ d ∈ d0 :: rest, val d p.2 t = 0) → val r' p.1 t = 0)) := by
  refine ⟨_, _, SimpleAverage.averageData_eq d0 rest n atol rtol h hc, averageData_eq fl sum d0 rest n atol rtol h hc, rfl, ?_, ?_⟩
  · intro c hcm
    unfold avgOf at hcm
    simp only [List.mem_cons, List.not_mem_nil, or_false] at hcm
    rcases hcm with rfl | rfl | rfl | rfl | rfl | rfl | rfl <;> simp
  intro t ht
  have hne : (d0 :: rest) ≠ [] := by simp
  have hk1 : 0 < k := by rw [← hkk]; simp
  have hvals : ∀ (l : Label) (f g : ℕ → ℚ), col? (avgOf fl sum (d0 :: rest) d0 n) l = some ((List.range n).map f) →
      col? (SimpleAverage.avgOf d0 rest n) l = some ((List.range n).map g) →
      val (avgOf fl sum (d0 :: rest) d0 n) l t = f t ∧ val (SimpleAverage.avgOf d0 rest n) l t = g t := by
    intro l f g h1 h2
    rw [val_of_col h1, val_of_col h2, getD_map_range _ _ _ ht, getD_map_range _ _ _ ht]
    exact ⟨rfl, rfl⟩
  refine ⟨?_, ?_, ?_, ?_⟩
  · obtain ⟨e1, e2⟩ := hvals "X" _ _ rfl rfl
    rw [e1, e2]
  · obtain ⟨e1, e2⟩ := hvals "Y" _ _ rfl rfl
    rw [e1, e2]
  · intro l hl
    have hmain : |fl (sum ((d0 :: rest).map fun d => val d l t) / ((d0 :: rest).length : ℚ)) - sumOver (d0 :: rest) l t / ((d0 :: rest).length : ℚ)| ≤
        2 * k * u * (sumOver (d0 :: rest) l t / ((d0 :: rest).length : ℚ)) := by
      have h0 : ∀ x ∈ (d0 :: rest).map fun d => val d l t, 0 ≤ x := by
        intro x hx
        obtain ⟨d, hd, rfl⟩ := List.mem_map.mp hx
        exact hpos d hd l hl t ht
      have hkq : (0 : ℚ) < (k : ℚ) := by exact_mod_cast hk1
      have := mean_error hu hfl hsum ((d0 :: rest).map fun d => val d l t) (by simp) h0 ((d0 :: rest).length : ℚ) (by rw [hkk]; exact hkq)
        (by rw [List.length_map, hkk]; nlinarith)
      rw [List.length_map, hkk] at this
      rw [hkk]
      refine le_trans this (mul_le_mul_of_nonneg_right ?_ (div_nonneg (List.sum_nonneg h0) hkq.le))
      have : 0 ≤ (k : ℚ) * u := by positivity
      linarith
    simp only [List.mem_cons, List.not_mem_nil, or_false] at hl
    rcases hl with rfl | rfl
    · obtain ⟨e1, e2⟩ := hvals "M" _ _ rfl rfl
      rw [e1, e2]
      exact hmain
    · obtain ⟨e1, e2⟩ := hvals "N" _ _ rfl rfl
      rw [e1, e2]
      exact hmain
  · intro p hp V hV
    have hw : p.2 ∈ ["M", "N"] := by
      simp only [List.mem_cons, List.not_mem_nil, or_false] at hp
      rcases hp with rfl | rfl | rfl <;> simp
    have hq := quotient_error hu hfl hsum ((d0 :: rest).map fun d => (val d p.1 t, val d p.2 t)) (by simp) V
      (by
        intro q hq
        obtain ⟨d, hd, rfl⟩ := List.mem_map.mp hq
        exact hpos d hd _ hw t ht)
      (by
        intro q hq
        obtain ⟨d, hd, rfl⟩ := List.mem_map.mp hq
        exact hV d hd)
      (by rw [List.length_map, hkk]; exact hk)
    rw [List.length_map, hkk] at hq
    simp only [List.map_map] at hq
    have hV0 : 0 ≤ V := le_trans (abs_nonneg _) (hV d0 (by simp))
    have hmain : |quotient fl (sum ((d0 :: rest).map fun d => fl (val d p.1 t * val d p.2 t))) (sum ((d0 :: rest).map fun d => val d p.2 t)) -
          SimpleAverage.quotient (sumOver2 (d0 :: rest) p.1 p.2 t) (sumOver (d0 :: rest) p.2 t)| ≤ 3 * (k + 1) * u * V ∧
        ((∀ d ∈ d0 :: rest, val d p.2 t = 0) → quotient fl (sum ((d0 :: rest).map fun d => fl (val d p.1 t * val d p.2 t))) (sum ((d0 :: rest).map fun d => val d p.2 t)) = 0) := by
      have hS0 : 0 ≤ sumOver (d0 :: rest) p.2 t := List.sum_nonneg (by
        intro x hx
        obtain ⟨d, hd, rfl⟩ := List.mem_map.mp hx
        exact hpos d hd _ hw t ht)
      rcases hS0.eq_or_lt with hz | hz
      · obtain ⟨z1, z2, z3⟩ := hq.2 hz.symm
        have z1' : sum ((d0 :: rest).map fun d => val d p.2 t) = 0 := z1
        have z2' : sum ((d0 :: rest).map fun d => fl (val d p.1 t * val d p.2 t)) = 0 := z2
        have z3' : sumOver2 (d0 :: rest) p.1 p.2 t = 0 := z3
        have hq0 : quotient fl 0 0 = 0 := by simp [quotient]
        have hq1 : SimpleAverage.quotient 0 0 = 0 := by simp [SimpleAverage.quotient]
        rw [z1', z2', z3', ← hz, hq0, hq1]
        refine ⟨?_, fun _ => rfl⟩
        rw [sub_zero, abs_zero]
        positivity
      · obtain ⟨hwp, he⟩ := hq.1 hz
        have hwp' : sum ((d0 :: rest).map fun d => val d p.2 t) ≠ 0 := ne_of_gt hwp
        unfold quotient SimpleAverage.quotient
        rw [if_pos hwp', if_pos hz.ne']
        refine ⟨he, ?_⟩
        intro hall
        exfalso
        have : sumOver (d0 :: rest) p.2 t = 0 := List.sum_eq_zero (by
          intro x hx
          obtain ⟨d, hd, rfl⟩ := List.mem_map.mp hx
          exact hall d hd)
        linarith
    simp only [List.mem_cons, List.not_mem_nil, or_false] at hp
    rcases hp with rfl | rfl | rfl
    · obtain ⟨e1, e2⟩ := hvals "U" _ _ rfl rfl
      rw [e1, e2]
      exact hmain
    · obtain ⟨e1, e2⟩ := hvals "V" _ _ rfl rfl
      rw [e1, e2]
      exact hmain
    · obtain ⟨e1, e2⟩ := hvals "T" _ _ rfl rfl
      rw [e1, e2]
      exact hmain

/-- Double precision: for up to 2^50 - 1 maps, added one after the other or pairwise, the bounds hold with `u = 2^-53`. -/
theorem C126_double (k : ℕ) (hk : k < 2 ^ 50) (depth : ℕ) : Rounds (1 / 2 ^ 53) (roundBits 53) ∧ Sums (roundBits 53) (inOrder (roundBits 53)) ∧
    Sums (roundBits 53) (pairwise (roundBits 53) depth) ∧ ((k : ℚ) + 1) * (1 / 2 ^ 53) ≤ 1 / 8 := by
  refine ⟨rounds_roundBits 53, sums_inOrder _, sums_pairwise _ _, ?_⟩
  have : (k : ℚ) + 1 ≤ 2 ^ 50 := by exact_mod_cast hk
  have h2 : ((k : ℚ) + 1) * (1 / 2 ^ 53) ≤ 2 ^ 50 * (1 / 2 ^ 53) := mul_le_mul_of_nonneg_right this (by norm_num)
  refine le_trans h2 ?_
  norm_num

/-- Maps that meet the hypotheses, with an average that is rounded: 1/10, 1/5 and 3/10 are no double precision numbers, nor is 16/3. -/
example : (∀ d ∈ [mapA, mapB], HasFields d 2) ∧ (∀ d ∈ [mapB], Close (1 / 1000) (1 / 100000) 2 mapA d) ∧
    (∀ d ∈ [mapA, mapB], ∀ l ∈ ["M", "N"], ∀ t : ℕ, t < 2 → 0 ≤ val d l t) ∧
    averageData (roundBits 53) (inOrder (roundBits 53)) [mapA, mapB] = SimpleAverage.averageData [mapA, mapB] ∧
    roundBits 53 (1 / 10) = 3602879701896397 / 36028797018963968 ∧ roundBits 53 (16 / 3) ≠ 16 / 3 ∧
    inOrder (roundBits 53) [roundBits 53 (1 / 10), roundBits 53 (1 / 5), roundBits 53 (3 / 10)] ≠ inOrder (roundBits 53) [roundBits 53 (3 / 10), roundBits 53 (1 / 5), roundBits 53 (1 / 10)] := by
  refine ⟨?_, ?_, by decide +kernel, by decide +kernel, by decide +kernel, by decide +kernel, by decide +kernel⟩
  · intro d hd
    simp only [List.mem_cons, List.not_mem_nil, or_false] at hd
    rcases hd with rfl | rfl <;> exact hasFields_of _ _ (by decide +kernel)
  · unfold Close; decide +kernel

/-! ## Combined bins -/

theorem slice_pairs (nx ny i j : ℕ) (a w : ℕ → ℕ → ℚ) (g : ℚ → ℚ → ℚ) :
    List.zipWith g (slice nx ny i j a) (slice nx ny i j w) = (List.range (nx * ny)).map fun k => g (a (nx * i + k / ny) (ny * j + k % ny)) (w (nx * i + k / ny) (ny * j + k % ny)) := by
  unfold slice
  rw [zipWith_map_range]

/-- **C126, combined bins.** In blocks of `nx` × `ny` bins, the rounded sums of masses and numbers have a relative error of at most `2 nx ny u`, and the
rounded means of velocities and temperatures differ from the exact ones by at most `3 (nx ny + 1) u` times the largest value in the map. -/
theorem C126_combine_errors (u : ℚ) (hu : 0 ≤ u) (fl : ℚ → ℚ) (hfl : Rounds u fl) (sum : List ℚ → ℚ) (hsum : Sums fl sum)
    (d : Record) (SX SY : ℕ) (h : HasFields d (SX * SY)) (nx ny : ℕ) (hnx : 0 < nx) (hny : 0 < ny)
    (hpos : ∀ l ∈ ["M", "N"], ∀ t, t < SX * SY → 0 ≤ val d l t) (hk : ((nx * ny : ℕ) + 1 : ℚ) * u ≤ 1 / 8) :
    (∀ l ∈ ["M", "N"], ∃ c c', SimpleAverage.combineField d (SX, SY) nx ny l none = .ok c ∧ combineField fl sum d (SX, SY) nx ny l none = .ok c' ∧
      c'.length = c.length ∧ ∀ t, t < c.length → |c'.getD t 0 - c.getD t 0| ≤ 2 * (nx * ny : ℕ) * u * c.getD t 0) ∧
    (∀ p ∈ [("U", "M"), ("V", "M"), ("T", "N")], ∀ V : ℚ, (∀ t, t < SX * SY → |val d p.1 t| ≤ V) →
      ∃ c c', SimpleAverage.combineField d (SX, SY) nx ny p.1 (some p.2) = .ok c ∧ combineField fl sum d (SX, SY) nx ny p.1 (some p.2) = .ok c' ∧
      c'.length = c.length ∧ ∀ t, t < c.length → |c'.getD t 0 - c.getD t 0| ≤ 3 * ((nx * ny : ℕ) + 1) * u * V) := by
  have hN : 0 < nx * ny := Nat.mul_pos hnx hny
  have hres : ∀ l ∈ ["X", "Y", "N", "T", "M", "U", "V"], ∃ c : List ℚ, reshaped d l (SX, SY) = .ok (fun a b => c.getD (a * SY + b) 0) ∧ ∀ t, c.getD t 0 = val d l t := by
    intro l hl
    obtain ⟨c, hc, hlen⟩ := h l hl
    refine ⟨c, ?_, fun t => (val_of_col hc t).symm⟩
    unfold reshaped key
    rw [hc, Option.elim_some, ok_bind, if_pos hlen]
  have hin : ∀ t k, t < (SX / nx) * (SY / ny) → k < nx * ny → (nx * (t / (SY / ny)) + k / ny) * SY + (ny * (t % (SY / ny)) + k % ny) < SX * SY := by
    intro t k ht hk
    obtain ⟨h1, h2⟩ := div_mod_lt ht
    obtain ⟨h3, h4⟩ := div_mod_lt hk
    have a1 : nx * (t / (SY / ny)) + k / ny < SX := by
      have e1 : nx * (t / (SY / ny)) + nx ≤ nx * (SX / nx) := by
        rw [← Nat.mul_succ]
        exact Nat.mul_le_mul_left _ h1
      have e2 := Nat.mul_div_le SX nx
      omega
    have a2 : ny * (t % (SY / ny)) + k % ny < SY := by
      have e1 : ny * (t % (SY / ny)) + ny ≤ ny * (SY / ny) := by
        rw [← Nat.mul_succ]
        exact Nat.mul_le_mul_left _ h2
      have e2 := Nat.mul_div_le SY ny
      omega
    have := grid_lt (nx := SY) (ny := SX) a2 a1
    rwa [Nat.mul_comm SY SX] at this
  have hQ : (0 : ℚ) ≤ ((nx * ny : ℕ) : ℚ) := Nat.cast_nonneg _
  constructor
  · intro l hl
    have hl' : l ∈ ["X", "Y", "N", "T", "M", "U", "V"] := by
      simp only [List.mem_cons, List.not_mem_nil, or_false] at hl ⊢
      tauto
    obtain ⟨c, hc, hv⟩ := hres l hl'
    refine ⟨_, _, by unfold SimpleAverage.combineField; rw [hc, ok_bind], by unfold combineField; rw [hc, ok_bind], by simp, ?_⟩
    intro t ht
    rw [List.length_map, List.length_range] at ht
    rw [getD_map_range _ _ _ ht, getD_map_range _ _ _ ht]
    have h0 : ∀ x ∈ slice nx ny (t / (SY / ny)) (t % (SY / ny)) (fun a b => c.getD (a * SY + b) 0), 0 ≤ x := by
      intro x hx
      obtain ⟨k, hk, rfl⟩ := List.mem_map.mp hx
      simp only
      rw [hv]
      exact hpos l hl _ (hin t k ht (List.mem_range.mp hk))
    have hlen : (slice nx ny (t / (SY / ny)) (t % (SY / ny)) (fun a b => c.getD (a * SY + b) 0)).length = nx * ny := by simp [slice]
    generalize slice nx ny (t / (SY / ny)) (t % (SY / ny)) (fun a b => c.getD (a * SY + b) 0) = xs at *
    have hne : xs ≠ [] := by rintro rfl; simp at hlen; omega
    have he := (hsum xs hne).error hu hfl
    have ha : (xs.map fun x => |x|).sum = xs.sum := by
      conv_rhs => rw [← List.map_id xs]
      congr 1
      apply List.map_congr_left
      intro x hx
      exact abs_of_nonneg (h0 x hx)
    rw [ha] at he
    refine le_trans he (mul_le_mul_of_nonneg_right ?_ (List.sum_nonneg h0))
    have hle : ((xs.length - 1 : ℕ) : ℚ) * u ≤ ((nx * ny : ℕ) : ℚ) * u := by
      apply mul_le_mul_of_nonneg_right _ hu
      exact_mod_cast (by omega : xs.length - 1 ≤ nx * ny)
    have := pow_bound hu (xs.length - 1) (by nlinarith)
    have h9 : 0 ≤ ((nx * ny : ℕ) : ℚ) * u := mul_nonneg hQ hu
    linarith
  · intro p hp V hV
    have hw : p.2 ∈ ["M", "N"] := by
      simp only [List.mem_cons, List.not_mem_nil, or_false] at hp
      rcases hp with rfl | rfl | rfl <;> simp
    have hl1 : p.1 ∈ ["X", "Y", "N", "T", "M", "U", "V"] := by
      simp only [List.mem_cons, List.not_mem_nil, or_false] at hp
      rcases hp with rfl | rfl | rfl <;> simp
    have hl2 : p.2 ∈ ["X", "Y", "N", "T", "M", "U", "V"] := by
      simp only [List.mem_cons, List.not_mem_nil, or_false] at hp
      rcases hp with rfl | rfl | rfl <;> simp
    obtain ⟨c, hc, hv⟩ := hres p.1 hl1
    obtain ⟨w, hwc, hwv⟩ := hres p.2 hl2
    refine ⟨_, _, by unfold SimpleAverage.combineField; rw [hc, ok_bind]; simp only; rw [hwc, ok_bind],
      by unfold combineField; rw [hc, ok_bind]; simp only; rw [hwc, ok_bind], by simp, ?_⟩
    intro t ht
    rw [List.length_map, List.length_range] at ht
    rw [getD_map_range _ _ _ ht, getD_map_range _ _ _ ht]
    unfold average SimpleAverage.average
    rw [slice_pairs, slice_pairs]
    have hq := quotient_error hu hfl hsum ((List.range (nx * ny)).map fun k : ℕ =>
        (c.getD ((nx * (t / (SY / ny)) + k / ny) * SY + (ny * (t % (SY / ny)) + k % ny)) 0, w.getD ((nx * (t / (SY / ny)) + k / ny) * SY + (ny * (t % (SY / ny)) + k % ny)) 0))
      (by simp; omega) V
      (by
        intro q hq
        obtain ⟨k, hk, rfl⟩ := List.mem_map.mp hq
        simp only
        rw [hwv]
        exact hpos _ hw _ (hin t k ht (List.mem_range.mp hk)))
      (by
        intro q hq
        obtain ⟨k, hk, rfl⟩ := List.mem_map.mp hq
        simp only
        rw [hv]
        exact hV _ (hin t k ht (List.mem_range.mp hk)))
      (by rw [List.length_map, List.length_range]; exact hk)
    rw [List.length_map, List.length_range] at hq
    simp only [List.map_map] at hq
    have hV0 : 0 ≤ V := le_trans (abs_nonneg _) (hV _ (hin t 0 ht hN))
    have hS0 : 0 ≤ (slice nx ny (t / (SY / ny)) (t % (SY / ny)) (fun a b => w.getD (a * SY + b) 0)).sum := List.sum_nonneg (by
      intro x hx
      obtain ⟨k, hk, rfl⟩ := List.mem_map.mp hx
      simp only
      rw [hwv]
      exact hpos _ hw _ (hin t k ht (List.mem_range.mp hk)))
    rcases hS0.eq_or_lt with hz | hz
    · have hz1 : sum (slice nx ny (t / (SY / ny)) (t % (SY / ny)) (fun a b => w.getD (a * SY + b) 0)) = 0 := (hq.2 hz.symm).1
      rw [if_pos hz1, if_pos hz.symm, sub_zero, abs_zero]
      positivity
    · have hz1 : sum (slice nx ny (t / (SY / ny)) (t % (SY / ny)) (fun a b => w.getD (a * SY + b) 0)) ≠ 0 := ne_of_gt (hq.1 hz).1
      rw [if_neg hz1, if_neg hz.ne']
      exact (hq.1 hz).2

/-- A map that meets the hypotheses for blocks of 3 × 2 bins and double precision. -/
example : HasFields mapD (3 * 2) ∧ (∀ l ∈ ["M", "N"], ∀ t : ℕ, t < 3 * 2 → 0 ≤ val mapD l t) ∧ (((3 * 2 : ℕ) : ℚ) + 1) * (1 / 2 ^ 53) ≤ 1 / 8 ∧
    (SimpleAverage.combineField mapD (3, 2) 3 2 "T" (some "N")).toOption ≠ (combineField (roundBits 53) (pairwise (roundBits 53) 3) mapD (3, 2) 3 2 "T" (some "N")).toOption :=
  ⟨hasFields_of _ _ (by decide +kernel), by decide +kernel, by norm_num, by decide +kernel⟩

end Strata.FloatAverage
