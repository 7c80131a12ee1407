import Verif.Spec.Turned
import Verif.Props.Sample
import Verif.Props.View
import Verif.Proofs.SimpleText
/-! # C162: fields of mirrored and turned maps -/
namespace Strata.Resample
open Strata Strata.Flow Strata.Average
open Strata.Sample

theorem gradient_reverse {n : ℕ} (hn : 3 ≤ n) (h : ℚ) (f : ℕ → ℚ) {i : ℕ} (hi : i < n) :
    gradient n h (fun k => f (n - 1 - k)) i = -gradient n h f (n - 1 - i) := by
  unfold gradient
  by_cases h0 : i = 0
  · subst h0
    rw [if_pos rfl, if_neg (show ¬ n - 1 - 0 = 0 by omega), if_pos (show n - 1 - 0 + 1 = n by omega)]
    beta_reduce
    rw [show n - 1 - 1 = n - 2 by omega, show n - 1 - 2 = n - 3 by omega, show n - 1 - 0 = n - 1 by omega]
    ring
  · rw [if_neg h0]
    by_cases h1 : i + 1 = n
    · rw [if_pos h1, if_pos (show n - 1 - i = 0 by omega)]
      beta_reduce
      rw [show n - 1 - (n - 3) = 2 by omega, show n - 1 - (n - 2) = 1 by omega, show n - 1 - (n - 1) = 0 by omega]
      ring
    · rw [if_neg h1, if_neg (show ¬ n - 1 - i = 0 by omega), if_neg (show ¬ n - 1 - i + 1 = n by omega)]
      beta_reduce
      rw [show n - 1 - (i + 1) = n - 1 - i - 1 by omega, show n - 1 - (i - 1) = n - 1 - i + 1 by omega]
      ring

theorem gradient_neg (n : ℕ) (h : ℚ) (f : ℕ → ℚ) (i : ℕ) : gradient n h (fun k => -f k) i = -gradient n h f i := by
  unfold gradient
  split_ifs <;> ring

theorem nodeDiss_mirror {nx ny : ℕ} (hnx : 3 ≤ nx) (hny : 3 ≤ ny) (μ : ℚ) (sp : ℚ × ℚ) {U V U' V' : ℕ → ℕ → ℚ}
    (hU : ∀ a b, a < nx → b < ny → U' a b = -U (nx - 1 - a) b) (hV : ∀ a b, a < nx → b < ny → V' a b = V (nx - 1 - a) b)
    {i j : ℕ} (hi : i < nx) (hj : j < ny) : nodeDiss μ sp nx ny U' V' (nx - 1 - i) j = nodeDiss μ sp nx ny U V i j := by
  have hi' : nx - 1 - i < nx := by omega
  have e0 : nx - 1 - (nx - 1 - i) = i := by omega
  unfold nodeDiss
  rw [gradient_congr hnx (fun a ha => hU a j ha hj) hi', gradient_congr hny (fun b hb => hU (nx - 1 - i) b hi' hb) hj,
    gradient_congr hnx (fun a ha => hV a j ha hj) hi', gradient_congr hny (fun b hb => hV (nx - 1 - i) b hi' hb) hj,
    gradient_neg, gradient_neg, gradient_reverse hnx sp.1 (fun a => U a j) hi', gradient_reverse hnx sp.1 (fun a => V a j) hi', e0]
  unfold formula
  ring

theorem nodeDiss_exchange {nx ny : ℕ} (hnx : 3 ≤ nx) (hny : 3 ≤ ny) (μ : ℚ) (sp : ℚ × ℚ) {U V U' V' : ℕ → ℕ → ℚ}
    (hU : ∀ a b, a < nx → b < ny → U' b a = V a b) (hV : ∀ a b, a < nx → b < ny → V' b a = U a b)
    {i j : ℕ} (hi : i < nx) (hj : j < ny) : nodeDiss μ (sp.2, sp.1) ny nx U' V' j i = nodeDiss μ sp nx ny U V i j := by
  unfold nodeDiss
  rw [gradient_congr hny (fun b hb => hU i b hi hb) hj, gradient_congr hnx (fun a ha => hU a j ha hj) hi,
    gradient_congr hny (fun b hb => hV i b hi hb) hj, gradient_congr hnx (fun a ha => hV a j ha hj) hi]
  unfold formula
  ring

/-- Where the bin at node `(i, j)` is seen. -/
def Motion.node (nx : ℕ) : Motion → ℕ × ℕ → ℕ × ℕ
  | .mirror _, n => (nx - 1 - n.1, n.2)
  | .exchange, n => (n.2, n.1)

theorem mirror_pos (a x0 dx : ℚ) {nx i : ℕ} (hi : i < nx) :
    2 * a - (x0 + dx * ((nx - 1 : ℕ) : ℚ)) + dx * ((nx - 1 - i : ℕ) : ℚ) = 2 * a - (x0 + dx * (i : ℚ)) := by
  have : ((nx - 1 - i : ℕ) : ℚ) = ((nx - 1 : ℕ) : ℚ) - (i : ℚ) := by rw [Nat.cast_sub (by omega)]
  rw [this]; ring

theorem Seen.atNode {m : Motion} {sp : ℚ × ℚ} {x0 y0 : ℚ} {nx ny : ℕ} (i j : ℕ) (hi : i < nx) (hj : j < ny) (r : Record) (l : Label) :
    Resample.atNode r l (m.grid sp x0 y0 nx ny).1 (m.grid sp x0 y0 nx ny).2.1.1 (m.grid sp x0 y0 nx ny).2.1.2 ("X", "Y") (m.node nx (i, j)).1 (m.node nx (i, j)).2 =
      valueAt r l (m.pos (x0 + sp.1 * (i : ℚ), y0 + sp.2 * (j : ℚ))).1 (m.pos (x0 + sp.1 * (i : ℚ), y0 + sp.2 * (j : ℚ))).2 := by
  have _ := hj
  cases m with
  | mirror a =>
    unfold Resample.atNode
    simp only [Motion.grid, Motion.node, Motion.pos]
    rw [mirror_pos a x0 sp.1 hi]
  | exchange => rfl

/-- The row of the bin seen where row `t` is. -/
theorem seen_row {m : Motion} {sp : ℚ × ℚ} {x0 y0 : ℚ} {nx ny : ℕ} (hx : 0 < sp.1) (hy : 0 < sp.2) {r r' : Record} (h : Lattice r sp x0 y0 nx ny)
    (h' : Lattice r' (m.grid sp x0 y0 nx ny).1 (m.grid sp x0 y0 nx ny).2.1.1 (m.grid sp x0 y0 nx ny).2.1.2 (m.grid sp x0 y0 nx ny).2.2.1 (m.grid sp x0 y0 nx ny).2.2.2)
    {t t' : ℕ} (ht : t < Flow.size r) (ht' : t' < Flow.size r') (e : (val r' "X" t', val r' "Y" t') = m.pos (val r "X" t, val r "Y" t)) :
    ∃ i j, i < nx ∧ j < ny ∧ t = j * nx + i ∧ t' = (m.node nx (i, j)).2 * (m.grid sp x0 y0 nx ny).2.2.1 + (m.node nx (i, j)).1 := by
  rw [h.size] at ht
  rw [h'.size] at ht'
  have hn := h.nxpos
  have hi : t % nx < nx := Nat.mod_lt _ hn
  have hj : t / nx < ny := Nat.div_lt_of_lt_mul ht
  have et : t = t / nx * nx + t % nx := by rw [Nat.mul_comm]; exact (Nat.div_add_mod t nx).symm
  have e1 := h.x t ht
  have e2 := h.y t ht
  have e3 := h'.x t' ht'
  have e4 := h'.y t' ht'
  simp only at e1 e2 e3 e4
  refine ⟨t % nx, t / nx, hi, hj, et, ?_⟩
  cases m with
  | mirror a =>
    simp only [Motion.grid] at e3 e4 ht' ⊢
    simp only [Motion.pos, Prod.mk.injEq, e1, e2, e3, e4] at e
    simp only [Motion.node]
    have a1 : ((t' % nx : ℕ) : ℚ) = ((nx - 1 - t % nx : ℕ) : ℚ) := by
      have := e.1
      rw [← mirror_pos a x0 sp.1 hi] at this
      exact mul_left_cancel₀ hx.ne' (by linarith)
    have a2 : ((t' / nx : ℕ) : ℚ) = ((t / nx : ℕ) : ℚ) := mul_left_cancel₀ hy.ne' (by linarith [e.2])
    have b1 : t' % nx = nx - 1 - t % nx := by exact_mod_cast a1
    have b2 : t' / nx = t / nx := by exact_mod_cast a2
    rw [← b1, ← b2, Nat.mul_comm]; exact (Nat.div_add_mod t' nx).symm
  | exchange =>
    simp only [Motion.grid] at e3 e4 ht' ⊢
    simp only [Motion.pos, Prod.mk.injEq, e1, e2, e3, e4] at e
    simp only [Motion.node]
    have a1 : ((t' % ny : ℕ) : ℚ) = ((t / nx : ℕ) : ℚ) := mul_left_cancel₀ hy.ne' (by linarith [e.1])
    have a2 : ((t' / ny : ℕ) : ℚ) = ((t % nx : ℕ) : ℚ) := mul_left_cancel₀ hx.ne' (by linarith [e.2])
    have b1 : t' % ny = t / nx := by exact_mod_cast a1
    have b2 : t' / ny = t % nx := by exact_mod_cast a2
    rw [← b1, ← b2, Nat.mul_comm]; exact (Nat.div_add_mod t' ny).symm

theorem node_lt {m : Motion} {sp : ℚ × ℚ} {x0 y0 : ℚ} {nx ny i j : ℕ} (hi : i < nx) (hj : j < ny) :
    (m.node nx (i, j)).1 < (m.grid sp x0 y0 nx ny).2.2.1 ∧ (m.node nx (i, j)).2 < (m.grid sp x0 y0 nx ny).2.2.2 := by
  cases m with
  | mirror a => exact ⟨by simp only [Motion.node, Motion.grid]; omega, hj⟩
  | exchange => exact ⟨hj, hi⟩

theorem grid_pos {m : Motion} {sp : ℚ × ℚ} {x0 y0 : ℚ} {nx ny : ℕ} (hx : 0 < sp.1) (hy : 0 < sp.2) :
    0 < (m.grid sp x0 y0 nx ny).1.1 ∧ 0 < (m.grid sp x0 y0 nx ny).1.2 := by
  cases m with
  | mirror a => exact ⟨hx, hy⟩
  | exchange => exact ⟨hy, hx⟩

theorem grid_size {m : Motion} {sp : ℚ × ℚ} {x0 y0 : ℚ} {nx ny k : ℕ} (hx : k ≤ nx) (hy : k ≤ ny) :
    k ≤ (m.grid sp x0 y0 nx ny).2.2.1 ∧ k ≤ (m.grid sp x0 y0 nx ny).2.2.2 := by
  cases m with
  | mirror a => exact ⟨hx, hy⟩
  | exchange => exact ⟨hy, hx⟩

theorem getElem_of_getD {α : Type} {d : List α} {t : ℕ} (x : α) (h : t < d.length) : d[t]? = some (d.getD t x) := by
  rw [List.getD_eq_getElem?_getD, List.getElem?_eq_getElem h]; rfl

theorem motion_node_involutive {m : Motion} {nx ny : ℕ} {sp : ℚ × ℚ} {x0 y0 : ℚ} {a b : ℕ} (ha : a < (m.grid sp x0 y0 nx ny).2.2.1) (hb : b < (m.grid sp x0 y0 nx ny).2.2.2) :
    ∃ i j, i < nx ∧ j < ny ∧ m.node nx (i, j) = (a, b) := by
  cases m with
  | mirror c =>
    simp only [Motion.grid] at ha hb
    exact ⟨nx - 1 - a, b, by omega, hb, by simp only [Motion.node, Prod.mk.injEq, and_true]; omega⟩
  | exchange => exact ⟨b, a, hb, ha, rfl⟩

/-- The dissipation where it is seen. -/
theorem nodeDiss_seen (m : Motion) {nx ny : ℕ} (hnx : 3 ≤ nx) (hny : 3 ≤ ny) (μ : ℚ) (sp : ℚ × ℚ) (x0 y0 : ℚ) {U V U' V' : ℕ → ℕ → ℚ}
    (h : ∀ a b, a < nx → b < ny → (U' (m.node nx (a, b)).1 (m.node nx (a, b)).2, V' (m.node nx (a, b)).1 (m.node nx (a, b)).2) = m.vec (U a b, V a b))
    {i j : ℕ} (hi : i < nx) (hj : j < ny) :
    nodeDiss μ (m.grid sp x0 y0 nx ny).1 (m.grid sp x0 y0 nx ny).2.2.1 (m.grid sp x0 y0 nx ny).2.2.2 U' V' (m.node nx (i, j)).1 (m.node nx (i, j)).2 =
      nodeDiss μ sp nx ny U V i j := by
  cases m with
  | mirror c =>
    simp only [Motion.node, Motion.vec, Prod.mk.injEq] at h
    refine nodeDiss_mirror hnx hny μ sp ?_ ?_ hi hj
    · intro a b ha hb
      have := (h (nx - 1 - a) b (by omega) hb).1
      rwa [show nx - 1 - (nx - 1 - a) = a by omega] at this
    · intro a b ha hb
      have := (h (nx - 1 - a) b (by omega) hb).2
      rwa [show nx - 1 - (nx - 1 - a) = a by omega] at this
  | exchange =>
    simp only [Motion.node, Motion.vec, Prod.mk.injEq] at h
    exact nodeDiss_exchange hnx hny μ sp (fun a b ha hb => (h a b ha hb).1) (fun a b ha hb => (h a b ha hb).2) hi hj

theorem vec_scale (m : Motion) (v : ℚ × ℚ) (w : ℚ) : m.vec (v.1 * w, v.2 * w) = ((m.vec v).1 * w, (m.vec v).2 * w) := by
  cases m with
  | mirror a => simp [Motion.vec]
  | exchange => rfl

/-- **C162, dissipation.** -/
theorem C162_dissipation (m : Motion) (sp : ℚ × ℚ) (x0 y0 : ℚ) (nx ny : ℕ) (f f' : Flow) (h : Seen m sp x0 y0 nx ny f f') (hx : 0 < sp.1) (hy : 0 < sp.2)
    (hnx : 3 ≤ nx) (hny : 3 ≤ ny) (hu : "U" ∈ names f.data) (hv : "V" ∈ names f.data) (μ : ℚ) (weight : Option Label)
    (hw : ∀ w, weight = some w → w ∈ names f.data ∧ w ∉ ["X", "Y", "U", "V"]) :
    ∃ g d g' d', viscousDissipation f μ ("X", "Y") ("U", "V") weight = .ok (g, d) ∧ viscousDissipation f' μ ("X", "Y") ("U", "V") weight = .ok (g', d') ∧
      AtSeen (fun a b => b = a) m g g' d d' := by
  obtain ⟨px, py⟩ := grid_pos (m := m) (x0 := x0) (y0 := y0) (nx := nx) (ny := ny) hx hy
  obtain ⟨sx, sy⟩ := grid_size (m := m) (sp := sp) (x0 := x0) (y0 := y0) hnx hny
  obtain ⟨g, d, e, -, -, hl, -, hd, hval⟩ := viscous_eq f μ sp x0 y0 nx ny ("X", "Y") ("U", "V") weight h.left hx hy hnx hny hu hv (fun w e => (hw w e).1)
  obtain ⟨g', d', e', -, -, hl', -, hd', hval'⟩ := viscous_eq f' μ _ _ _ _ _ ("X", "Y") ("U", "V") weight h.right px py sx sy (h.fields ▸ hu) (h.fields ▸ hv)
    (fun w e => h.fields ▸ (hw w e).1)
  refine ⟨g, d, g', d', e, e', by rw [hd, hl.size], by rw [hd', hl'.size], ?_⟩
  intro t ht t' ht' hp
  obtain ⟨i, j, hi, hj, et, et'⟩ := seen_row hx hy hl hl' ht ht' hp
  refine ⟨_, _, getElem_of_getD none (by rw [hd, ← hl.size]; exact ht), getElem_of_getD none (by rw [hd', ← hl'.size]; exact ht'), ?_⟩
  obtain ⟨ni, nj⟩ := node_lt (m := m) (sp := sp) (x0 := x0) (y0 := y0) hi hj
  rw [et, et', hval i j hi hj, hval' _ _ ni nj]
  have hweight : ∀ a b, a < nx → b < ny →
      (weight.elim 1 fun w => Resample.atNode f'.data w (m.grid sp x0 y0 nx ny).1 (m.grid sp x0 y0 nx ny).2.1.1 (m.grid sp x0 y0 nx ny).2.1.2 ("X", "Y") (m.node nx (a, b)).1 (m.node nx (a, b)).2) =
        weight.elim 1 fun w => Resample.atNode f.data w sp x0 y0 ("X", "Y") a b := by
    intro a b ha hb
    cases weight with
    | none => rfl
    | some w =>
      simp only [Option.elim_some]
      rw [Seen.atNode a b ha hb, h.other w (hw w rfl).2]; rfl
  rw [hweight i j hi hj]
  congr 2
  congr 1
  refine nodeDiss_seen m hnx hny μ sp x0 y0 ?_ hi hj
  intro a b ha hb
  simp only [hweight a b ha hb]
  have := h.flow (x0 + sp.1 * (a : ℚ), y0 + sp.2 * (b : ℚ))
  rw [Seen.atNode a b ha hb, Seen.atNode a b ha hb]
  rw [Prod.mk.injEq] at this
  rw [this.1, this.2, ← vec_scale]; rfl

/-! ## Gradients of the density -/

open Strata.View

theorem slope_reverse {n : ℕ} (hn : 2 ≤ n) (x0 x1 d : ℚ) {f f' : ℕ → ℚ} (hf : ∀ k, k < n → f' k = f (n - 1 - k)) {i : ℕ} (hi : i < n) :
    slope n (fun k => x1 + d * (k : ℚ)) f' (n - 1 - i) = -slope n (fun k => x0 + d * (k : ℚ)) f i := by
  unfold slope
  rw [hf _ (by omega), hf _ (by omega)]
  rw [show n - 1 - min (n - 1 - i + 1) (n - 1) = i - 1 by omega, show n - 1 - (n - 1 - i - 1) = min (i + 1) (n - 1) by omega]
  have e : (x1 + d * ((min (n - 1 - i + 1) (n - 1) : ℕ) : ℚ)) - (x1 + d * ((n - 1 - i - 1 : ℕ) : ℚ)) =
      (x0 + d * ((min (i + 1) (n - 1) : ℕ) : ℚ)) - (x0 + d * ((i - 1 : ℕ) : ℚ)) := by
    have : ((min (n - 1 - i + 1) (n - 1) : ℕ) : ℚ) - ((n - 1 - i - 1 : ℕ) : ℚ) = ((min (i + 1) (n - 1) : ℕ) : ℚ) - ((i - 1 : ℕ) : ℚ) := by
      rw [← Nat.cast_sub (by omega), ← Nat.cast_sub (by omega)]
      congr 1
      omega
    linear_combination d * this
  beta_reduce
  rw [e]
  ring

theorem slope_congr {n : ℕ} (hn : 2 ≤ n) {x f g : ℕ → ℚ} (h : ∀ k, k < n → f k = g k) {i : ℕ} (hi : i < n) : slope n x f i = slope n x g i := by
  unfold slope
  rw [h _ (by omega), h _ (by omega)]

/-- The gradient at a node as the code computes it. -/
def nodeGrad (sp : ℚ × ℚ) (x0 y0 : ℚ) (nx ny : ℕ) (M : ℕ → ℕ → ℚ) (i j : ℕ) : ℚ × ℚ :=
  (slope nx (fun k => x0 + sp.1 * (k : ℚ)) (fun a => M a j) i * (sp.1 / sp.2), slope ny (fun k => y0 + sp.2 * (k : ℚ)) (fun b => M i b) j * (sp.2 / sp.1))

theorem nodeGrad_seen (m : Motion) {nx ny : ℕ} (hnx : 2 ≤ nx) (hny : 2 ≤ ny) (sp : ℚ × ℚ) (x0 y0 : ℚ) {M M' : ℕ → ℕ → ℚ}
    (h : ∀ a b, a < nx → b < ny → M' (m.node nx (a, b)).1 (m.node nx (a, b)).2 = M a b) {i j : ℕ} (hi : i < nx) (hj : j < ny) :
    nodeGrad (m.grid sp x0 y0 nx ny).1 (m.grid sp x0 y0 nx ny).2.1.1 (m.grid sp x0 y0 nx ny).2.1.2 (m.grid sp x0 y0 nx ny).2.2.1 (m.grid sp x0 y0 nx ny).2.2.2 M'
      (m.node nx (i, j)).1 (m.node nx (i, j)).2 = m.vec (nodeGrad sp x0 y0 nx ny M i j) := by
  cases m with
  | mirror c =>
    simp only [Motion.node] at h
    have hM : ∀ a b, a < nx → b < ny → M' a b = M (nx - 1 - a) b := by
      intro a b ha hb
      have := h (nx - 1 - a) b (by omega) hb
      rwa [show nx - 1 - (nx - 1 - a) = a by omega] at this
    simp only [nodeGrad, Motion.grid, Motion.node, Motion.vec, Prod.mk.injEq]
    constructor
    · rw [slope_reverse hnx x0 _ sp.1 (f := fun a => M a j) (fun k hk => hM k j hk hj) hi]; ring
    · rw [slope_congr hny (fun b hb => hM (nx - 1 - i) b (by omega) hb) hj, show nx - 1 - (nx - 1 - i) = i by omega]
  | exchange =>
    simp only [Motion.node] at h
    simp only [nodeGrad, Motion.grid, Motion.node, Motion.vec, Prod.mk.injEq]
    exact ⟨by rw [slope_congr hny (fun b hb => h i b hi hb) hj], by rw [slope_congr hnx (fun a ha => h a j ha hj) hi]⟩

theorem seen_mass {m : Motion} {sp : ℚ × ℚ} {x0 y0 : ℚ} {nx ny : ℕ} {f f' : Flow} (h : Seen m sp x0 y0 nx ny f f') (a b : ℕ) (ha : a < nx) (hb : b < ny) :
    Resample.atNode f'.data "M" (m.grid sp x0 y0 nx ny).1 (m.grid sp x0 y0 nx ny).2.1.1 (m.grid sp x0 y0 nx ny).2.1.2 ("X", "Y") (m.node nx (a, b)).1 (m.node nx (a, b)).2 =
      Resample.atNode f.data "M" sp x0 y0 ("X", "Y") a b := by
  rw [Seen.atNode a b ha hb, h.other "M" (by decide)]; rfl

theorem densityGradient_grid {f g : Flow} {gx gy : List (Option ℚ)} (h : densityGradient f = .ok (g, gx, gy)) {s : Record} {nx ny : ℕ} {sp : ℚ × ℚ} {ms : List ℚ}
    (e : massOnGrid f = .ok (⟨s, f.info⟩, nx, ny, sp, ms)) : g.data = s := by
  unfold densityGradient at h
  rw [e, Gmx.ok_bind] at h
  simp only at h
  obtain ⟨-, -, h⟩ := Simple.bind_eq_ok h
  obtain ⟨-, -, h⟩ := Simple.bind_eq_ok h
  injection h with h
  injection h with h
  rw [← h]

theorem evaporation_grid {f g : Flow} {ev : List (Option ℚ)} (h : evaporation f = .ok (g, ev)) {s : Record} {nx ny : ℕ} {sp : ℚ × ℚ} {ms : List ℚ}
    (e : massOnGrid f = .ok (⟨s, f.info⟩, nx, ny, sp, ms)) : g.data = s := by
  unfold evaporation at h
  rw [e, Gmx.ok_bind] at h
  simp only at h
  obtain ⟨us, -, h⟩ := Simple.bind_eq_ok h
  obtain ⟨vs, -, h⟩ := Simple.bind_eq_ok h
  obtain ⟨-, -, h⟩ := Simple.bind_eq_ok h
  injection h with h
  injection h with h
  rw [← h]

/-- **C162, gradient of the density.** -/
theorem C162_density_gradient (m : Motion) (sp : ℚ × ℚ) (x0 y0 : ℚ) (nx ny : ℕ) (f f' : Flow) (h : Seen m sp x0 y0 nx ny f f') (hx : 0 < sp.1) (hy : 0 < sp.2)
    (hnx : 2 ≤ nx) (hny : 2 ≤ ny) (hm : "M" ∈ names f.data) (hn : "grad_rho_x" ∉ names f.data ∧ "grad_rho_y" ∉ names f.data) :
    ∃ g gx gy g' gx' gy', densityGradient f = .ok (g, gx, gy) ∧ densityGradient f' = .ok (g', gx', gy') ∧
      AtSeen (fun a b => ∃ v : ℚ × ℚ, a = (some v.1, some v.2) ∧ b = (some (m.vec v).1, some (m.vec v).2)) m g g' (gx.zip gy) (gx'.zip gy') := by
  obtain ⟨px, py⟩ := grid_pos (m := m) (x0 := x0) (y0 := y0) (nx := nx) (ny := ny) hx hy
  obtain ⟨sx, sy⟩ := grid_size (m := m) (sp := sp) (x0 := x0) (y0 := y0) hnx hny
  obtain ⟨g, gx, gy, e, -, l1, l2, hval⟩ := (C71_as_coded f sp x0 y0 nx ny h.left hx hy hnx hny hm).1 hn
  obtain ⟨g', gx', gy', e', -, l1', l2', hval'⟩ := (C71_as_coded f' _ _ _ _ _ h.right px py sx sy (h.fields ▸ hm)).1 (h.fields ▸ hn)
  obtain ⟨s, ms, em, hl, -⟩ := massOnGrid_eq f sp x0 y0 nx ny h.left hx hy hnx hny hm
  obtain ⟨s', ms', em', hl', -⟩ := massOnGrid_eq f' _ _ _ _ _ h.right px py sx sy (h.fields ▸ hm)
  rw [← densityGradient_grid e em] at hl
  rw [← densityGradient_grid e' em'] at hl'
  refine ⟨g, gx, gy, g', gx', gy', e, e', by rw [List.length_zip, l1, l2, min_self, hl.size], by rw [List.length_zip, l1', l2', min_self, hl'.size], ?_⟩
  intro t ht t' ht' hp
  obtain ⟨i, j, hi, hj, et, et'⟩ := seen_row hx hy hl hl' ht ht' hp
  obtain ⟨ni, nj⟩ := node_lt (m := m) (sp := sp) (x0 := x0) (y0 := y0) hi hj
  rw [hl.size] at ht
  rw [hl'.size] at ht'
  refine ⟨(gx.getD t none, gy.getD t none), (gx'.getD t' none, gy'.getD t' none), List.getElem?_zip_eq_some.mpr ⟨getElem_of_getD none (by rw [l1]; exact ht), getElem_of_getD none (by rw [l2]; exact ht)⟩,
    List.getElem?_zip_eq_some.mpr ⟨getElem_of_getD none (by rw [l1']; exact ht'), getElem_of_getD none (by rw [l2']; exact ht')⟩, ?_⟩
  obtain ⟨-, v1, v2⟩ := hval i j hi hj
  obtain ⟨-, v1', v2'⟩ := hval' _ _ ni nj
  have key := nodeGrad_seen m hnx hny sp x0 y0 (fun a b ha hb => seen_mass h a b ha hb) hi hj
  refine ⟨nodeGrad sp x0 y0 nx ny (fun a b => Resample.atNode f.data "M" sp x0 y0 ("X", "Y") a b) i j, ?_, ?_⟩
  · rw [et]; exact Prod.ext v1 v2
  · rw [et', ← key]; exact Prod.ext v1' v2'

/-- **C162, evaporation.** -/
theorem C162_evaporation (m : Motion) (sp : ℚ × ℚ) (x0 y0 : ℚ) (nx ny : ℕ) (f f' : Flow) (h : Seen m sp x0 y0 nx ny f f') (hx : 0 < sp.1) (hy : 0 < sp.2)
    (hnx : 2 ≤ nx) (hny : 2 ≤ ny) (hm : "M" ∈ names f.data) (hn : "evaporation" ∉ names f.data) (hu : "U" ∈ names f.data) (hv : "V" ∈ names f.data) :
    ∃ g ev g' ev', evaporation f = .ok (g, ev) ∧ evaporation f' = .ok (g', ev') ∧ AtSeen (fun a b => b = a) m g g' ev ev' := by
  obtain ⟨px, py⟩ := grid_pos (m := m) (x0 := x0) (y0 := y0) (nx := nx) (ny := ny) hx hy
  obtain ⟨sx, sy⟩ := grid_size (m := m) (sp := sp) (x0 := x0) (y0 := y0) hnx hny
  obtain ⟨g, ev, e, -, l1, hval⟩ := (C71_as_coded f sp x0 y0 nx ny h.left hx hy hnx hny hm).2 ⟨hn, hu, hv⟩
  obtain ⟨g', ev', e', -, l1', hval'⟩ := (C71_as_coded f' _ _ _ _ _ h.right px py sx sy (h.fields ▸ hm)).2 (h.fields ▸ ⟨hn, hu, hv⟩)
  obtain ⟨s, ms, em, hl, -⟩ := massOnGrid_eq f sp x0 y0 nx ny h.left hx hy hnx hny hm
  obtain ⟨s', ms', em', hl', -⟩ := massOnGrid_eq f' _ _ _ _ _ h.right px py sx sy (h.fields ▸ hm)
  rw [← evaporation_grid e em] at hl
  rw [← evaporation_grid e' em'] at hl'
  refine ⟨g, ev, g', ev', e, e', by rw [l1, hl.size], by rw [l1', hl'.size], ?_⟩
  intro t ht t' ht' hp
  obtain ⟨i, j, hi, hj, et, et'⟩ := seen_row hx hy hl hl' ht ht' hp
  obtain ⟨ni, nj⟩ := node_lt (m := m) (sp := sp) (x0 := x0) (y0 := y0) hi hj
  rw [hl.size] at ht
  rw [hl'.size] at ht'
  refine ⟨_, _, getElem_of_getD none (by rw [l1]; exact ht), getElem_of_getD none (by rw [l1']; exact ht'), ?_⟩
  have key := nodeGrad_seen m hnx hny sp x0 y0 (fun a b ha hb => seen_mass h a b ha hb) hi hj
  have hf := h.flow (x0 + sp.1 * (i : ℚ), y0 + sp.2 * (j : ℚ))
  rw [et, et', (hval i j hi hj).2, (hval' _ _ ni nj).2, Seen.atNode i j hi hj, Seen.atNode i j hi hj]
  rw [Prod.mk.injEq] at hf
  rw [hf.1, hf.2]
  unfold nodeGrad at key
  rw [Prod.mk.injEq] at key
  rw [key.1, key.2]
  congr 1
  cases m with
  | mirror a => simp only [Motion.vec, Resample.atNode]; ring
  | exchange => simp only [Motion.vec, Resample.atNode]; ring

/-- **C162, kinetic energy.** -/
theorem C162_energy (m : Motion) (sp : ℚ × ℚ) (x0 y0 : ℚ) (nx ny : ℕ) (f f' : Flow) (h : Seen m sp x0 y0 nx ny f f')
    (hm : "M" ∈ names f.data) (hu : "U" ∈ names f.data) (hv : "V" ∈ names f.data) :
    ∃ e e', inertialEnergy f "M" ("U", "V") = .ok e ∧ inertialEnergy f' "M" ("U", "V") = .ok e' ∧ AtSeen (fun a b => b = a) m f f' e e' := by
  obtain ⟨e, h1, h2, h3⟩ := C41_inertial_energy f "M" "U" "V" h.left.1.wf hm hu hv
  obtain ⟨e', h1', h2', h3'⟩ := C41_inertial_energy f' "M" "U" "V" h.right.1.wf (h.fields ▸ hm) (h.fields ▸ hu) (h.fields ▸ hv)
  refine ⟨e, e', h1, h1', h2, h2', ?_⟩
  intro t ht t' ht' hp
  refine ⟨_, _, getElem_of_getD 0 (by rw [h2]; exact ht), getElem_of_getD 0 (by rw [h2']; exact ht'), ?_⟩
  rw [(h3 t ht).1, (h3' t' ht').1, ← h.left.1.valueAt_row "M" ht, ← h.left.1.valueAt_row "U" ht, ← h.left.1.valueAt_row "V" ht,
    ← h.right.1.valueAt_row "M" ht', ← h.right.1.valueAt_row "U" ht', ← h.right.1.valueAt_row "V" ht']
  have q1 := h.flow (val f.data "X" t, val f.data "Y" t)
  have q2 := h.other "M" (by decide) (val f.data "X" t, val f.data "Y" t)
  rw [← hp, Prod.mk.injEq] at q1
  rw [← hp] at q2
  simp only at q1 q2 ⊢
  rw [q1.1, q1.2, q2]
  cases m with
  | mirror a => simp only [Motion.vec]; ring
  | exchange => simp only [Motion.vec]; ring

/-! ## Cases -/

theorem pos_inj (m : Motion) {p q : ℚ × ℚ} : m.pos p = m.pos q ↔ p = q := by
  cases m with
  | mirror a => simp only [Motion.pos, Prod.ext_iff, sub_right_inj]
  | exchange => simp only [Motion.pos, Prod.ext_iff]; exact and_comm

/-- Maps stored in the same order. -/
theorem valueAt_seen (m : Motion) {r r' : Record} (hs : Flow.size r' = Flow.size r)
    (hp : ∀ t, t < Flow.size r → (val r' "X" t, val r' "Y" t) = m.pos (val r "X" t, val r "Y" t)) {l l' : Label} {F : ℚ → ℚ} (h0 : F 0 = 0)
    (hl : ∀ t, t < Flow.size r → val r' l t = F (val r l' t)) (p : ℚ × ℚ) :
    valueAt r' l (m.pos p).1 (m.pos p).2 = F (valueAt r l' p.1 p.2) := by
  unfold valueAt
  rw [hs]
  have : ((List.range (Flow.size r)).find? fun t => decide (val r' "X" t = (m.pos p).1 ∧ val r' "Y" t = (m.pos p).2)) =
      (List.range (Flow.size r)).find? fun t => decide (val r "X" t = p.1 ∧ val r "Y" t = p.2) := by
    apply List.find?_congr
    intro t ht
    have e1 := Prod.ext_iff.mp (hp t (List.mem_range.mp ht))
    have e2 := pos_inj m (p := (val r "X" t, val r "Y" t)) (q := p)
    rw [Prod.ext_iff, Prod.ext_iff] at e2
    simp only at e1 e2 ⊢
    rw [e1.1, e1.2, decide_eq_decide]
    exact e2
  simp only
  rw [this]
  cases hf : (List.range (Flow.size r)).find? fun t => decide (val r "X" t = p.1 ∧ val r "Y" t = p.2) with
  | none => exact h0.symm
  | some t => exact hl t (List.mem_range.mp (List.mem_of_find?_eq_some hf))

/-- A map of three columns and four rows, 2 by 1, stored column by column. -/
def exTurn : Flow := ⟨[("X", [1, 1, 1, 1, 3, 3, 3, 3, 5, 5, 5, 5]), ("Y", [0, 1, 2, 3, 0, 1, 2, 3, 0, 1, 2, 3]), ("M", [1, 4, 7, 2, 5, 8, 3, 6, 9, 1, 1, 2]),
  ("U", [1, 3, 1, 0, 1, 1, 2, 0, 2, 5, 1, 1]), ("V", [1, 2, 3, 1, 1, 0, 0, 1, 1, 4, 0, 2])], { shape := some (3, 4), spacing := some (2, 1) }⟩
/-- The map seen in a mirror at x = 10. -/
def exTurnM : Flow := ⟨[("X", [19, 19, 19, 19, 17, 17, 17, 17, 15, 15, 15, 15]), ("Y", [0, 1, 2, 3, 0, 1, 2, 3, 0, 1, 2, 3]), ("M", [1, 4, 7, 2, 5, 8, 3, 6, 9, 1, 1, 2]),
  ("U", [-1, -3, -1, 0, -1, -1, -2, 0, -2, -5, -1, -1]), ("V", [1, 2, 3, 1, 1, 0, 0, 1, 1, 4, 0, 2])], { shape := some (3, 4), spacing := some (2, 1) }⟩
/-- The map with its axes exchanged. -/
def exTurnX : Flow := ⟨[("X", [0, 1, 2, 3, 0, 1, 2, 3, 0, 1, 2, 3]), ("Y", [1, 1, 1, 1, 3, 3, 3, 3, 5, 5, 5, 5]), ("M", [1, 4, 7, 2, 5, 8, 3, 6, 9, 1, 1, 2]),
  ("U", [1, 2, 3, 1, 1, 0, 0, 1, 1, 4, 0, 2]), ("V", [1, 3, 1, 0, 1, 1, 2, 0, 2, 5, 1, 1])], { shape := some (4, 3), spacing := some (1, 2) }⟩

theorem exTurn_full : FullMap exTurn (2, 1) 1 0 3 4 :=
  ⟨fullGrid_of_rows _ _ _ _ _ _ _ 12 rfl ⟨by decide, by decide⟩ (by decide) (by decide) (by decide) (by decide) (by decide +kernel) (by decide +kernel), rfl, rfl⟩
theorem exTurnM_full : FullMap exTurnM (2, 1) (2 * 10 - (1 + 2 * ((3 - 1 : ℕ) : ℚ))) 0 3 4 :=
  ⟨fullGrid_of_rows _ _ _ _ _ _ _ 12 rfl ⟨by decide, by decide⟩ (by decide) (by decide) (by decide) (by decide) (by decide +kernel) (by decide +kernel), rfl, rfl⟩
theorem exTurnX_full : FullMap exTurnX (1, 2) 0 1 4 3 :=
  ⟨fullGrid_of_rows _ _ _ _ _ _ _ 12 rfl ⟨by decide, by decide⟩ (by decide) (by decide) (by decide) (by decide) (by decide +kernel) (by decide +kernel), rfl, rfl⟩

theorem val_missing {r : Record} {l : Label} (h : l ∉ names r) (t : ℕ) : val r l t = 0 := by
  unfold val; rw [(col?_none_iff r l).mpr h]; rfl

theorem other_rows {r r' : Record} (hn : names r = names r') (hs : ∀ l ∈ names r, l ∉ ["X", "Y", "U", "V"] → ∀ t, t < Flow.size r → val r' l t = val r l t) (l : Label)
    (hl : l ∉ ["X", "Y", "U", "V"]) (t : ℕ) (ht : t < Flow.size r) : val r' l t = val r l t := by
  by_cases h : l ∈ names r
  · exact hs l h hl t ht
  · rw [val_missing h, val_missing (hn ▸ h)]

theorem exSeenM : Seen (.mirror 10) (2, 1) 1 0 3 4 exTurn exTurnM where
  left := exTurn_full
  right := exTurnM_full
  fields := rfl
  flow p := by
    have hp : ∀ t, t < Flow.size exTurn.data → (val exTurnM.data "X" t, val exTurnM.data "Y" t) = (Motion.mirror 10).pos (val exTurn.data "X" t, val exTurn.data "Y" t) := by
      show ∀ t : ℕ, t < 12 → (val exTurnM.data "X" t, val exTurnM.data "Y" t) = Motion.pos (.mirror 10) (val exTurn.data "X" t, val exTurn.data "Y" t)
      decide +kernel
    exact Prod.ext
      (valueAt_seen (.mirror 10) (r := exTurn.data) (r' := exTurnM.data) rfl hp (F := fun x => -x) (by norm_num) (l := "U") (l' := "U") (by show ∀ t : ℕ, t < 12 → val exTurnM.data "U" t = -val exTurn.data "U" t; decide +kernel) p)
      (valueAt_seen (.mirror 10) (r := exTurn.data) (r' := exTurnM.data) rfl hp (F := fun x => x) rfl (l := "V") (l' := "V") (by show ∀ t : ℕ, t < 12 → val exTurnM.data "V" t = val exTurn.data "V" t; decide +kernel) p)
  other l hl p := by
    have hp : ∀ t, t < Flow.size exTurn.data → (val exTurnM.data "X" t, val exTurnM.data "Y" t) = (Motion.mirror 10).pos (val exTurn.data "X" t, val exTurn.data "Y" t) := by
      show ∀ t : ℕ, t < 12 → (val exTurnM.data "X" t, val exTurnM.data "Y" t) = Motion.pos (.mirror 10) (val exTurn.data "X" t, val exTurn.data "Y" t)
      decide +kernel
    exact valueAt_seen (.mirror 10) (r := exTurn.data) (r' := exTurnM.data) rfl hp (F := fun x => x) rfl (other_rows (r := exTurn.data) (r' := exTurnM.data) rfl (by show ∀ l ∈ names exTurn.data, l ∉ ["X", "Y", "U", "V"] → ∀ t : ℕ, t < 12 → val exTurnM.data l t = val exTurn.data l t; decide +kernel) l hl) p

theorem exSeenX : Seen .exchange (2, 1) 1 0 3 4 exTurn exTurnX where
  left := exTurn_full
  right := exTurnX_full
  fields := rfl
  flow p := by
    have hp : ∀ t, t < Flow.size exTurn.data → (val exTurnX.data "X" t, val exTurnX.data "Y" t) = Motion.exchange.pos (val exTurn.data "X" t, val exTurn.data "Y" t) := by
      show ∀ t : ℕ, t < 12 → (val exTurnX.data "X" t, val exTurnX.data "Y" t) = Motion.pos .exchange (val exTurn.data "X" t, val exTurn.data "Y" t)
      decide +kernel
    exact Prod.ext
      (valueAt_seen .exchange (r := exTurn.data) (r' := exTurnX.data) rfl hp (F := fun x => x) rfl (l := "U") (l' := "V") (by show ∀ t : ℕ, t < 12 → val exTurnX.data "U" t = val exTurn.data "V" t; decide +kernel) p)
      (valueAt_seen .exchange (r := exTurn.data) (r' := exTurnX.data) rfl hp (F := fun x => x) rfl (l := "V") (l' := "U") (by show ∀ t : ℕ, t < 12 → val exTurnX.data "V" t = val exTurn.data "U" t; decide +kernel) p)
  other l hl p := by
    have hp : ∀ t, t < Flow.size exTurn.data → (val exTurnX.data "X" t, val exTurnX.data "Y" t) = Motion.exchange.pos (val exTurn.data "X" t, val exTurn.data "Y" t) := by
      show ∀ t : ℕ, t < 12 → (val exTurnX.data "X" t, val exTurnX.data "Y" t) = Motion.pos .exchange (val exTurn.data "X" t, val exTurn.data "Y" t)
      decide +kernel
    exact valueAt_seen .exchange (r := exTurn.data) (r' := exTurnX.data) rfl hp (F := fun x => x) rfl (other_rows (r := exTurn.data) (r' := exTurnX.data) rfl (by show ∀ l ∈ names exTurn.data, l ∉ ["X", "Y", "U", "V"] → ∀ t : ℕ, t < 12 → val exTurnX.data l t = val exTurn.data l t; decide +kernel) l hl) p

-- every bin is seen somewhere
example : ∀ t : ℕ, t < 12 → ∃ t' : ℕ, t' < 12 ∧ (val exTurnM.data "X" t', val exTurnM.data "Y" t') = (Motion.mirror 10).pos (val exTurn.data "X" t, val exTurn.data "Y" t) := by
  decide +kernel

-- the hypotheses of all four theorems are met
example := C162_dissipation (.mirror 10) (2, 1) 1 0 3 4 exTurn exTurnM exSeenM (by norm_num) (by norm_num) (by norm_num) (by norm_num) (by decide) (by decide) 1 (some "M")
  (by intro w hw; rw [← Option.some.inj hw]; decide)
example := C162_density_gradient .exchange (2, 1) 1 0 3 4 exTurn exTurnX exSeenX (by norm_num) (by norm_num) (by norm_num) (by norm_num) (by decide) (by decide)
example := C162_evaporation .exchange (2, 1) 1 0 3 4 exTurn exTurnX exSeenX (by norm_num) (by norm_num) (by norm_num) (by norm_num) (by decide) (by decide) (by decide) (by decide)
example := C162_energy (.mirror 10) (2, 1) 1 0 3 4 exTurn exTurnM exSeenM (by decide) (by decide) (by decide)

end Strata.Resample
