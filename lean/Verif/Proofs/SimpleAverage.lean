import Verif.Spec.SimpleAverage
import Verif.Proofs.SimpleText
/-! # Lemmas about averages and combinations of file data -/
namespace Strata.SimpleAverage
open Strata Strata.Flow Strata.Average Strata.Gmx Strata.Simple

theorem key_eq {d : Record} {n : ℕ} (h : HasFields d n) {l : Label} (hl : l ∈ ["X", "Y", "N", "T", "M", "U", "V"]) :
    key d l = .ok ((List.range n).map (val d l)) := by
  obtain ⟨c, hc, hlen⟩ := h l hl
  unfold key
  rw [hc, Option.elim_some]
  congr 1
  rw [eq_map_getD c, hlen]
  apply List.map_congr_left
  intro t _
  rw [val_of_col hc]

theorem sumArrays_eq (n : ℕ) (f : Record → ℕ → ℚ) (ds : List Record) (hne : ds ≠ []) :
    sumArrays (ds.map fun d => (List.range n).map (f d)) = .ok ((List.range n).map fun t => (ds.map fun d => f d t).sum) := by
  cases ds with
  | nil => exact absurd rfl hne
  | cons d ds =>
    rw [List.map_cons, sumArrays, if_pos (by simp)]
    congr 1
    rw [List.length_map, List.length_range]
    apply List.map_congr_left
    intro t ht
    rw [← List.map_cons (f := fun d => (List.range n).map (f d)), List.map_map]
    congr 1
    apply List.map_congr_left
    intro e _
    exact getD_map_range _ _ _ (List.mem_range.mp ht)

theorem keys_eq {ds : List Record} {n : ℕ} (h : ∀ d ∈ ds, HasFields d n) {l : Label} (hl : l ∈ ["X", "Y", "N", "T", "M", "U", "V"]) :
    ds.mapM (fun d => key d l) = .ok (ds.map fun d => (List.range n).map (val d l)) :=
  mapM_ok' _ _ _ fun d hd => key_eq (h d hd) hl

theorem getAvg_eq {ds : List Record} {n : ℕ} (hne : ds ≠ []) (h : ∀ d ∈ ds, HasFields d n) {l : Label} (hl : l ∈ ["X", "Y", "N", "T", "M", "U", "V"]) :
    getAvg ds l = .ok ((List.range n).map fun t => sumOver ds l t / (ds.length : ℚ)) := by
  unfold getAvg
  rw [keys_eq h hl, ok_bind, sumArrays_eq n (fun d => val d l) ds hne, ok_bind, List.map_map]
  rfl

theorem zipWith_map_range (n : ℕ) (g : ℚ → ℚ → ℚ) (a b : ℕ → ℚ) :
    List.zipWith g ((List.range n).map a) ((List.range n).map b) = (List.range n).map fun t => g (a t) (b t) := by
  rw [List.zipWith_map, List.zipWith_self]

theorem weighted_eq {d : Record} {n : ℕ} (h : HasFields d n) {l w : Label} (hl : l ∈ ["X", "Y", "N", "T", "M", "U", "V"])
    (hw : w ∈ ["X", "Y", "N", "T", "M", "U", "V"]) : weighted l w d = .ok ((List.range n).map fun t => val d l t * val d w t) := by
  unfold weighted
  rw [key_eq h hl, key_eq h hw, ok_bind, ok_bind, if_pos (by simp), zipWith_map_range]

theorem getWeightedAvg_eq {ds : List Record} {n : ℕ} (hne : ds ≠ []) (h : ∀ d ∈ ds, HasFields d n) {l w : Label}
    (hl : l ∈ ["X", "Y", "N", "T", "M", "U", "V"]) (hw : w ∈ ["X", "Y", "N", "T", "M", "U", "V"]) :
    getWeightedAvg ds l w = .ok ((List.range n).map fun t => quotient (sumOver2 ds l w t) (sumOver ds w t)) := by
  unfold getWeightedAvg
  rw [mapM_ok' _ _ _ fun d hd => weighted_eq (h d hd) hl hw, ok_bind, sumArrays_eq n (fun d t => val d l t * val d w t) ds hne, ok_bind,
    keys_eq h hw, ok_bind, sumArrays_eq n (fun d => val d w) ds hne, ok_bind, if_pos (by simp), zipWith_map_range]
  rfl

theorem checkCoord_eq {d0 d : Record} {n : ℕ} (h0 : HasFields d0 n) (h : HasFields d n) (atol rtol : ℚ) {l : Label} (hl : l ∈ ["X", "Y"]) :
    ((∀ t, t < n → |val d0 l t - val d l t| ≤ atol + rtol * |val d l t|) → checkCoord atol rtol d0 d l = .ok ()) ∧
    ((∃ t, t < n ∧ ¬ |val d0 l t - val d l t| ≤ atol + rtol * |val d l t|) → checkCoord atol rtol d0 d l = .error .valueError) := by
  have hl' : l ∈ ["X", "Y", "N", "T", "M", "U", "V"] := by
    simp only [List.mem_cons, List.not_mem_nil, or_false] at hl ⊢
    tauto
  have hall : checkCoord atol rtol d0 d l = if (((List.range n).map (val d0 l)).zip ((List.range n).map (val d l))).all (fun p => isClose atol rtol p.1 p.2) then .ok () else .error .valueError := by
    unfold checkCoord
    rw [key_eq h0 hl', key_eq h hl', ok_bind, ok_bind]
    unfold allClose
    rw [if_pos (by simp), ok_bind]
  have hz : ((List.range n).map (val d0 l)).zip ((List.range n).map (val d l)) = (List.range n).map fun t => (val d0 l t, val d l t) := by
    rw [List.zip_map', ]
  rw [hall, hz]
  constructor
  · intro hc
    rw [if_pos]
    rw [List.all_map, List.all_eq_true]
    intro t ht
    simp only [Function.comp, isClose, decide_eq_true_eq]
    exact hc t (List.mem_range.mp ht)
  · rintro ⟨t, ht, hc⟩
    rw [if_neg]
    rw [List.all_map, List.all_eq_true]
    intro hcon
    have := hcon t (List.mem_range.mpr ht)
    simp only [Function.comp, isClose, decide_eq_true_eq] at this
    exact hc this

/-- What the average is. -/
def avgOf (d0 : Record) (rest : List Record) (n : ℕ) : Record :=
  [("X", (List.range n).map (val d0 "X")), ("Y", (List.range n).map (val d0 "Y")),
      ("M", (List.range n).map fun t => sumOver (d0 :: rest) "M" t / ((d0 :: rest).length : ℚ)),
      ("N", (List.range n).map fun t => sumOver (d0 :: rest) "N" t / ((d0 :: rest).length : ℚ)),
      ("U", (List.range n).map fun t => quotient (sumOver2 (d0 :: rest) "U" "M" t) (sumOver (d0 :: rest) "M" t)),
      ("V", (List.range n).map fun t => quotient (sumOver2 (d0 :: rest) "V" "M" t) (sumOver (d0 :: rest) "M" t)),
      ("T", (List.range n).map fun t => quotient (sumOver2 (d0 :: rest) "T" "N" t) (sumOver (d0 :: rest) "N" t))]

/-- The average of dicts on the same grid. -/
theorem averageData_eq (d0 : Record) (rest : List Record) (n : ℕ) (atol rtol : ℚ) (h : ∀ d ∈ d0 :: rest, HasFields d n)
    (hc : ∀ d ∈ rest, Close atol rtol n d0 d) :
    averageData (d0 :: rest) atol rtol = .ok (avgOf d0 rest n) := by
  have hchk : rest.mapM (fun d => do checkCoord atol rtol d0 d "X"; checkCoord atol rtol d0 d "Y") = .ok (rest.map fun _ => ()) := by
    apply mapM_ok'
    intro d hd
    rw [(checkCoord_eq (h d0 (by simp)) (h d (by simp [hd])) atol rtol (by simp)).1 (hc d hd "X" (by simp)), ok_bind,
      (checkCoord_eq (h d0 (by simp)) (h d (by simp [hd])) atol rtol (by simp)).1 (hc d hd "Y" (by simp))]
  unfold averageData
  simp only
  rw [key_eq (h d0 (by simp)) (by simp), ok_bind, key_eq (h d0 (by simp)) (by simp), ok_bind, hchk, ok_bind, keys_eq h (by simp), ok_bind,
    sumArrays_eq n (fun d => val d "N") _ (by simp), ok_bind, keys_eq h (by simp), ok_bind, sumArrays_eq n (fun d => val d "M") _ (by simp), ok_bind,
    getAvg_eq (by simp) h (by simp), ok_bind, getAvg_eq (by simp) h (by simp), ok_bind, getWeightedAvg_eq (by simp) h (by simp) (by simp), ok_bind,
    getWeightedAvg_eq (by simp) h (by simp) (by simp), ok_bind, getWeightedAvg_eq (by simp) h (by simp) (by simp), ok_bind]
  rfl

theorem mapM_first_error {α β : Type} (f : α → Except Err β) (e : Err) : ∀ (l : List α), (∃ a ∈ l, ∃ e', f a = .error e') →
    (∀ a ∈ l, ∀ e', f a = .error e' → e' = e) → l.mapM f = .error e := by
  intro l
  induction l with
  | nil => rintro ⟨a, ha, _⟩; simp at ha
  | cons a l ih =>
    intro hex hall
    rw [List.mapM_cons]
    cases ha : f a with
    | error e' => rw [hall a (by simp) e' ha]; rfl
    | ok b =>
      rw [ok_bind, ih ?_ fun a h => hall a (by simp [h])]
      · rfl
      · obtain ⟨a', ha', e', he'⟩ := hex
        rcases List.mem_cons.mp ha' with rfl | hm
        · rw [ha] at he'; cases he'
        · exact ⟨a', hm, e', he'⟩

/-! ## Combining -/

theorem slice_sum (nx ny I J : ℕ) (f : ℕ → ℕ → ℚ) : (slice nx ny I J f).sum = block nx ny f I J := by
  unfold slice block
  rw [list_sum_range, Nat.mul_comm nx ny]
  exact sum_range_grid ny nx fun i j => f (nx * I + j) (ny * J + i)

theorem slice_mul (nx ny I J : ℕ) (f g : ℕ → ℕ → ℚ) :
    List.zipWith (· * ·) (slice nx ny I J f) (slice nx ny I J g) = slice nx ny I J fun i j => f i j * g i j := by
  unfold slice
  exact zipWith_map_range _ _ _ _

theorem reshaped_eq {d : Record} {SX SY : ℕ} (h : HasFields d (SX * SY)) {l : Label} (hl : l ∈ ["X", "Y", "N", "T", "M", "U", "V"]) :
    ∃ f, reshaped d l (SX, SY) = .ok f ∧ ∀ i j, i < SX → j < SY → f i j = cell d l SY i j := by
  unfold reshaped
  rw [key_eq h hl, ok_bind, if_pos (by simp)]
  refine ⟨_, rfl, ?_⟩
  intro i j hi hj
  have : i * SY + j < SX * SY := by
    have := grid_lt (nx := SY) (ny := SX) hj hi
    rwa [Nat.mul_comm SY SX] at this
  exact getD_map_range _ _ _ this

theorem block_congr (nx ny I J SX SY : ℕ) (hI : I < SX / nx) (hJ : J < SY / ny) (f g : ℕ → ℕ → ℚ) (h : ∀ i j, i < SX → j < SY → f i j = g i j) :
    block nx ny f I J = block nx ny g I J := by
  have inside : ∀ (n S K a : ℕ), K < S / n → a < n → n * K + a < S := by
    intro n S K a hK ha
    have h1 : n * (K + 1) ≤ n * (S / n) := Nat.mul_le_mul_left n hK
    have h2 : n * (S / n) ≤ S := Nat.mul_div_le S n
    rw [Nat.mul_succ] at h1
    omega
  unfold block
  refine Finset.sum_congr rfl fun a ha => Finset.sum_congr rfl fun b hb => ?_
  exact h _ _ (inside _ _ _ _ hI (Finset.mem_range.mp ha)) (inside _ _ _ _ hJ (Finset.mem_range.mp hb))

theorem div_mod_lt {p q t : ℕ} (h : t < p * q) : t / q < p ∧ t % q < q := by
  have hq : 0 < q := Nat.pos_of_ne_zero (by rintro rfl; simp at h)
  exact ⟨by rw [Nat.div_lt_iff_lt_mul hq]; exact h, Nat.mod_lt _ hq⟩

theorem combineField_none {d : Record} {SX SY : ℕ} (h : HasFields d (SX * SY)) (nx ny : ℕ) {l : Label} (hl : l ∈ ["X", "Y", "N", "T", "M", "U", "V"]) :
    combineField d (SX, SY) nx ny l none = .ok ((List.range (SX / nx * (SY / ny))).map fun t => block nx ny (cell d l SY) (t / (SY / ny)) (t % (SY / ny))) := by
  obtain ⟨f, hf, hfe⟩ := reshaped_eq h hl
  unfold combineField
  rw [hf, ok_bind]
  simp only
  congr 1
  apply List.map_congr_left
  intro t ht
  obtain ⟨h1, h2⟩ := div_mod_lt (List.mem_range.mp ht)
  rw [slice_sum, block_congr nx ny _ _ SX SY h1 h2 f _ hfe]

theorem combineField_some {d : Record} {SX SY : ℕ} (h : HasFields d (SX * SY)) (nx ny : ℕ) {l w : Label} (hl : l ∈ ["X", "Y", "N", "T", "M", "U", "V"])
    (hw : w ∈ ["X", "Y", "N", "T", "M", "U", "V"]) :
    combineField d (SX, SY) nx ny l (some w) = .ok ((List.range (SX / nx * (SY / ny))).map fun t =>
      if block nx ny (cell d w SY) (t / (SY / ny)) (t % (SY / ny)) = 0 then 0 else
        block nx ny (fun i j => cell d l SY i j * cell d w SY i j) (t / (SY / ny)) (t % (SY / ny)) / block nx ny (cell d w SY) (t / (SY / ny)) (t % (SY / ny))) := by
  obtain ⟨f, hf, hfe⟩ := reshaped_eq h hl
  obtain ⟨g, hg, hge⟩ := reshaped_eq h hw
  unfold combineField
  rw [hf, ok_bind]
  simp only
  rw [hg, ok_bind]
  congr 1
  apply List.map_congr_left
  intro t ht
  obtain ⟨h1, h2⟩ := div_mod_lt (List.mem_range.mp ht)
  unfold average
  rw [slice_sum, slice_mul, slice_sum, block_congr nx ny _ _ SX SY h1 h2 g _ hge, block_congr nx ny _ _ SX SY h1 h2 (fun i j => f i j * g i j) _
    (fun i j hi hj => by rw [hfe i j hi hj, hge i j hi hj])]

/-- A combined sum. -/
def sumCol (d : Record) (SX SY nx ny : ℕ) (l : Label) : List ℚ :=
  (List.range (SX / nx * (SY / ny))).map fun t => block nx ny (cell d l SY) (t / (SY / ny)) (t % (SY / ny))

/-- A combined weighted field. -/
def avgCol (d : Record) (SX SY nx ny : ℕ) (l w : Label) : List ℚ :=
  (List.range (SX / nx * (SY / ny))).map fun t =>
      if block nx ny (cell d w SY) (t / (SY / ny)) (t % (SY / ny)) = 0 then 0 else
        block nx ny (fun i j => cell d l SY i j * cell d w SY i j) (t / (SY / ny)) (t % (SY / ny)) / block nx ny (cell d w SY) (t / (SY / ny)) (t % (SY / ny))

theorem combineBins_eq {d : Record} {SX SY : ℕ} (h : HasFields d (SX * SY)) (dx dy x0 y0 : ℚ) (nb nx ny : ℕ) (hnx : 0 < nx) (hny : 0 < ny) :
    combineBins d ⟨(SX, SY), (dx, dy), (x0, y0), nb⟩ nx ny =
      .ok ([("X", (List.range (SX / nx * (SY / ny))).map fun t => (x0 + 1 / 2 * dx * ((nx : ℚ) - 1)) + dx * nx * ((t / (SY / ny) : ℕ) : ℚ)),
          ("Y", (List.range (SX / nx * (SY / ny))).map fun t => (y0 + 1 / 2 * dy * ((ny : ℚ) - 1)) + dy * ny * ((t % (SY / ny) : ℕ) : ℚ)),
          ("N", sumCol d SX SY nx ny "N"), ("M", sumCol d SX SY nx ny "M"), ("T", avgCol d SX SY nx ny "T" "N"), ("U", avgCol d SX SY nx ny "U" "M"),
          ("V", avgCol d SX SY nx ny "V" "M")], combinedInfo ⟨(SX, SY), (dx, dy), (x0, y0), nb⟩ nx ny) := by
  unfold combineBins
  rw [if_neg (by omega)]
  simp only
  rw [combineField_none h nx ny (by simp), ok_bind, combineField_none h nx ny (by simp), ok_bind, combineField_some h nx ny (by simp) (by simp), ok_bind,
      combineField_some h nx ny (by simp) (by simp), ok_bind, combineField_some h nx ny (by simp) (by simp), ok_bind]
  rfl

open Finset in
theorem sum_blocks1 (n p : ℕ) (g : ℕ → ℚ) : ∑ I ∈ range p, ∑ a ∈ range n, g (n * I + a) = ∑ i ∈ range (n * p), g i := by
  rw [← sum_range_grid n p fun a I => g (n * I + a)]
  exact Finset.sum_congr rfl fun t _ => by rw [Nat.div_add_mod]

open Finset in
/-- The blocks cover the bins once. -/
theorem gridSum_block (nx ny p q : ℕ) (f : ℕ → ℕ → ℚ) : gridSum p q (block nx ny f) = gridSum (nx * p) (ny * q) f := by
  unfold gridSum block
  rw [← sum_blocks1 nx p fun i => ∑ j ∈ range (ny * q), f i j]
  refine Finset.sum_congr rfl fun I _ => ?_
  rw [Finset.sum_comm]
  refine Finset.sum_congr rfl fun a _ => ?_
  exact sum_blocks1 ny q fun j => f (nx * I + a) j

theorem gridSum_congr (p q : ℕ) (f g : ℕ → ℕ → ℚ) (h : ∀ i j, i < p → j < q → f i j = g i j) : gridSum p q f = gridSum p q g := by
  unfold gridSum
  exact Finset.sum_congr rfl fun i hi => Finset.sum_congr rfl fun j hj => h i j (Finset.mem_range.mp hi) (Finset.mem_range.mp hj)

theorem block_zero (nx ny I J : ℕ) (f g : ℕ → ℕ → ℚ) (hg : ∀ a b, a < nx → b < ny → 0 ≤ g (nx * I + a) (ny * J + b)) (h : block nx ny g I J = 0) :
    block nx ny (fun i j => f i j * g i j) I J = 0 := by
  unfold block at h ⊢
  refine Finset.sum_eq_zero fun a ha => Finset.sum_eq_zero fun b hb => ?_
  rw [Finset.mem_range] at ha hb
  have h1 := (Finset.sum_eq_zero_iff_of_nonneg fun a ha => Finset.sum_nonneg fun b hb => hg a b (Finset.mem_range.mp ha) (Finset.mem_range.mp hb)).mp h a (Finset.mem_range.mpr ha)
  have h2 := (Finset.sum_eq_zero_iff_of_nonneg fun b hb => hg a b ha (Finset.mem_range.mp hb)).mp h1 b (Finset.mem_range.mpr hb)
  show f _ _ * g _ _ = 0
  rw [h2, mul_zero]

end Strata.SimpleAverage
