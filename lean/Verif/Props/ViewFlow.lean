import Verif.Model.ViewFlow
import Verif.Props.ViewMap
import Verif.Props.Sample
/-!
# Arrows of a series of maps, and their colours: C112, C113
-/
namespace Strata.View
open Strata Strata.Flow Strata.Average Strata.Resample Strata.Sample

/-! ## C112 -/

/-- **C112.** Maps that can each be drawn alone are all drawn, one figure each, in the order of the files, each as if it was alone;
a map that cannot be drawn (its arrows cannot be selected, or the figure not be made or saved) ends the drawing without an error:
the figures before it are there, those after it are not; and a map whose colours cannot be calculated ends the call with its error. -/
theorem C112_one_figure_per_map (plot : Figure → Bool) (o : FlowOpts) (maps : List Flow) (figures : List Figure)
    (h : List.Forall₂ (fun f a => viewFlowfields plot o [f] = ([a], .ok ())) maps figures) :
    viewFlowfields plot o maps = (figures, .ok ()) ∧
    ∀ f after end', viewFlowfields plot o [f] = ([], end') → viewFlowfields plot o (maps ++ f :: after) = (figures, end') := by
  have one : ∀ f a, viewFlowLoop plot o [f] = ([a], .ok ()) → ∀ fs, viewFlowLoop plot o (f :: fs) = (a :: (viewFlowLoop plot o fs).1, (viewFlowLoop plot o fs).2) := by
    intro f a h fs
    rw [viewFlowLoop] at h ⊢
    cases hc : colourFields o.colour f with
    | error e => rw [hc] at h; simp at h
    | ok s =>
      rw [hc] at h
      simp only at h ⊢
      cases ha : arrowsOf o s with
      | error e => rw [ha] at h; simp at h
      | ok a' =>
        rw [ha] at h
        simp only at h ⊢
        by_cases hp : plot a' = true
        · rw [if_pos hp] at h ⊢
          simp only [viewFlowLoop, Prod.mk.injEq, List.cons.injEq, and_true] at h
          rw [h]
        · rw [if_neg hp] at h
          simp at h
  have none' : ∀ f end', viewFlowLoop plot o [f] = ([], end') → ∀ fs, viewFlowLoop plot o (f :: fs) = ([], end') := by
    intro f end' h fs
    rw [viewFlowLoop] at h ⊢
    cases hc : colourFields o.colour f with
    | error e => rw [hc] at h; exact h
    | ok s =>
      rw [hc] at h
      simp only at h ⊢
      cases ha : arrowsOf o s with
      | error e => rw [ha] at h; exact h
      | ok a' =>
        rw [ha] at h
        simp only at h ⊢
        by_cases hp : plot a' = true
        · rw [if_pos hp] at h; simp at h
        · rw [if_neg hp] at h ⊢; exact h
  unfold viewFlowfields at *
  constructor
  · induction h with
    | nil => rfl
    | cons h _ ih => rw [one _ _ h, ih]
  · intro f after end' he
    induction h with
    | nil => exact none' f end' he after
    | cons h _ ih => rw [List.cons_append, one _ _ h, ih]

/-- **C112, errors.** The call fails exactly with the error of the colours of some map, all maps before which are drawn. -/
theorem C112_only_colours_fail (plot : Figure → Bool) (o : FlowOpts) (maps : List Flow) (e : Err) (h : (viewFlowfields plot o maps).2 = .error e) :
    ∃ before f after, maps = before ++ f :: after ∧ colourFields o.colour f = .error e ∧ (viewFlowfields plot o maps).1.length = before.length := by
  unfold viewFlowfields at *
  induction maps with
  | nil => simp [viewFlowLoop] at h
  | cons f fs ih =>
    rw [viewFlowLoop] at h ⊢
    cases hc : colourFields o.colour f with
    | error e' =>
      rw [hc] at h
      simp only [Except.error.injEq] at h
      exact ⟨[], f, fs, rfl, by rw [hc, h], rfl⟩
    | ok s =>
      rw [hc] at h
      simp only at h ⊢
      cases ha : arrowsOf o s with
      | error e' => rw [ha] at h; simp at h
      | ok a =>
        rw [ha] at h
        simp only at h ⊢
        by_cases hp : plot a = true
        · rw [if_pos hp] at h ⊢
          simp only at h
          obtain ⟨before, g, after, h1, h2, h3⟩ := ih h
          exact ⟨f :: before, g, after, by rw [h1]; rfl, h2, by simp [h3]⟩
        · rw [if_neg hp] at h; simp at h

/-! ## C113 -/

/-- The rows drawn: with flow along both axes, within the limits and not below the cutoff. -/
def DrawnRow (o : FlowOpts) (r : Record) (t : ℕ) : Prop :=
  t < Flow.size r ∧ (val r o.labels.1 t ≠ 0 ∧ val r o.labels.2 t ≠ 0) ∧ Within o.xlim.1 o.xlim.2 (val r o.coords.1 t) ∧
    Within o.ylim.1 o.ylim.2 (val r o.coords.2 t) ∧ AboveCutoff r (o.cutoffLabel, o.cutoff) t

/-- The fields the call needs, and the map is not empty. -/
structure CanShow (o : FlowOpts) (r : Record) : Prop where
  wf : Wf r
  size : 0 < Flow.size r
  x : o.coords.1 ∈ names r
  y : o.coords.2 ∈ names r
  u : o.labels.1 ∈ names r
  v : o.labels.2 ∈ names r
  cut : ∀ l, o.cutoffLabel = some l → l ∈ names r

theorem arrowsOf_spec (o : FlowOpts) (s : Shown) (h : CanShow o s.base) :
    ∃ rows : List ℕ, rows.Pairwise (· < ·) ∧ (∀ t, t ∈ rows ↔ DrawnRow o s.base t) ∧
      arrowsOf o s = .ok ⟨rows.map (val s.base o.coords.1), rows.map (val s.base o.coords.2), rows.map (val s.base o.labels.1),
        rows.map (val s.base o.labels.2), rows.map fun t => (weightsShown s o.colour).getD t none⟩ := by
  obtain ⟨hw, hs, hx, hy, hu, hv, hc⟩ := h
  obtain ⟨xs, x1, x2⟩ := Sample.field_ok hx
  obtain ⟨ys, y1, y2⟩ := Sample.field_ok hy
  obtain ⟨us, u1, u2⟩ := Sample.field_ok hu
  obtain ⟨vs, v1, v2⟩ := Sample.field_ok hv
  have lx := col?_length hw x1
  have ly := col?_length hw y1
  obtain ⟨mx, hmx, gx⟩ := cutSystem_spec xs o.xlim (by intro h0; rw [h0] at lx; simp at lx; omega)
  obtain ⟨my, hmy, gy⟩ := cutSystem_spec ys o.ylim (by intro h0; rw [h0] at ly; simp at ly; omega)
  obtain ⟨mc, hmc, gc⟩ := cutoffMask_spec s.base hw (o.cutoffLabel, o.cutoff) hs hc
  refine ⟨(List.range (Flow.size s.base)).filter fun t : ℕ =>
    decide (us.getD t 0 ≠ 0) && decide (vs.getD t 0 ≠ 0) && mx.getD t false && my.getD t false && mc.getD t false, ?_, ?_, ?_⟩
  · exact List.Pairwise.filter _ List.pairwise_lt_range
  · intro t
    rw [List.mem_filter, List.mem_range]
    refine and_congr_right fun ht => ?_
    simp only [Bool.and_eq_true, decide_eq_true_eq]
    rw [gx t (by omega), gy t (by omega), gc t ht, val_of_col u1, val_of_col v1, val_of_col x1, val_of_col y1]
    tauto
  · unfold arrowsOf
    simp only
    rw [x2, Gmx.ok_bind, y2, Gmx.ok_bind, u2, Gmx.ok_bind, v2, Gmx.ok_bind, hmx, Gmx.ok_bind, hmy, Gmx.ok_bind, hmc, Gmx.ok_bind]
    rw [pick_val x1, pick_val y1, pick_val u1, pick_val v1]

/-- One map: its figure, if its colours can be calculated and Matplotlib accepts it. -/
theorem viewFlow_one (plot : Figure → Bool) (o : FlowOpts) (f : Flow) (s : Shown) (hs : colourFields o.colour f = .ok s) (a : Figure)
    (ha : arrowsOf o s = .ok a) (hp : plot a = true) : viewFlowfields plot o [f] = ([a], .ok ()) := by
  unfold viewFlowfields
  rw [viewFlowLoop, hs]
  simp only
  rw [ha]
  simp only
  rw [if_pos hp]
  rfl

/-- The colours that add a field. -/
def addedColours : List Label := ["flow", "visc", "radial", "evaporation"]

theorem colourFields_plain {colour : Option Label} (h : ∀ c, colour = some c → c ∉ addedColours) (f : Flow) :
    colourFields colour f = .ok ⟨f.data, []⟩ := by
  unfold colourFields
  have h1 : ∀ c, c ∈ addedColours → ¬ colour = some c := fun c hc e => h c e hc
  rw [if_neg (h1 _ (by decide)), if_neg (h1 _ (by decide)), if_neg (h1 _ (by decide)), if_neg (h1 _ (by decide))]

/-- **C113, a field as colour.** The arrows are those of the drawn rows, in the order of the rows, with the value of the field in their
own row as colour; without a colour, or with the name of no field, the colour is 1. -/
theorem C113_field (plot : Figure → Bool) (hp : ∀ a, plot a = true) (o : FlowOpts) (hc : ∀ c, o.colour = some c → c ∉ addedColours) (f : Flow)
    (h : CanShow o f.data) :
    ∃ rows : List ℕ, rows.Pairwise (· < ·) ∧ (∀ t, t ∈ rows ↔ DrawnRow o f.data t) ∧
      viewFlowfields plot o [f] = ([⟨rows.map (val f.data o.coords.1), rows.map (val f.data o.coords.2), rows.map (val f.data o.labels.1),
        rows.map (val f.data o.labels.2), rows.map fun t => some ((arrowWeight f.data o.colour t : ℚ) : ℝ)⟩], .ok ()) := by
  obtain ⟨rows, h1, h2, h3⟩ := arrowsOf_spec o ⟨f.data, []⟩ h
  refine ⟨rows, h1, h2, ?_⟩
  rw [viewFlow_one plot o f _ (colourFields_plain hc f) _ h3 (hp _)]
  have key : (rows.map fun t => (weightsShown ⟨f.data, []⟩ o.colour).getD t none) = rows.map fun t => some ((arrowWeight f.data o.colour t : ℚ) : ℝ) := ?_
  · rw [key]
  refine List.map_congr_left fun t ht => ?_
  have hlt : t < Flow.size f.data := ((h2 t).mp ht).1
  unfold weightsShown arrowWeight
  cases hcol : o.colour with
  | none => simp [List.getD_eq_getElem?_getD, hlt]
  | some c =>
    simp only
    by_cases hcn : c ∈ names f.data
    · obtain ⟨cs, c1, -⟩ := Sample.field_ok hcn
      have hl := col?_length h.wf c1
      unfold Shown.values
      simp only [c1]
      rw [if_pos hcn, val_of_col c1]
      simp [List.getD_eq_getElem?_getD, hl, hlt]
    · have : col? f.data c = none := by
        rw [Option.eq_none_iff_forall_ne_some]
        intro a ha
        exact hcn ((col?_isSome_iff f.data c).mp ⟨a, ha⟩)
      unfold Shown.values
      simp only [this]
      rw [if_neg hcn]
      simp [List.getD_eq_getElem?_getD, hlt]

/-- The weights of an added field. -/
theorem weights_extra {r : Record} {c : Label} (h : c ∉ names r) (ws : List (Option ℝ)) : weightsShown ⟨r, [(c, ws)]⟩ (some c) = ws := by
  unfold weightsShown
  simp only
  rw [values_extra h]

/-- **C113, colouring by the flow.** If the arrows show the flow 'U', 'V', the colour of every arrow is its length, and the arrows are
those of the drawn rows. -/
theorem C113_flow (plot : Figure → Bool) (hp : ∀ a, plot a = true) (o : FlowOpts) (hc : o.colour = some "flow") (hl : o.labels = ("U", "V")) (f : Flow)
    (h : CanShow o f.data) (hn : "flow" ∉ names f.data) :
    ∃ (a : Figure) (rows : List ℕ), viewFlowfields plot o [f] = ([a], .ok ()) ∧ rows.Pairwise (· < ·) ∧ (∀ t, t ∈ rows ↔ DrawnRow o f.data t) ∧
      a.x = rows.map (val f.data o.coords.1) ∧ a.y = rows.map (val f.data o.coords.2) ∧ a.u = rows.map (val f.data "U") ∧ a.v = rows.map (val f.data "V") ∧
      a.weights.length = rows.length ∧
      ∀ k, k < rows.length → ∃ w : ℝ, a.weights.getD k none = some w ∧ 0 < w ∧ w ^ 2 = ((a.u.getD k 0 ^ 2 + a.v.getD k 0 ^ 2 : ℚ) : ℝ) := by
  have hu : "U" ∈ names f.data := by have := h.u; rwa [hl] at this
  have hv : "V" ∈ names f.data := by have := h.v; rwa [hl] at this
  obtain ⟨c, c1, c2, c3⟩ := (C93_absolute_flow f.data h.wf hu hv).2 hn
  have hs : colourFields o.colour f = .ok ⟨f.data, [("flow", c.map some)]⟩ := by
    unfold colourFields; rw [if_pos hc, c1]; rfl
  obtain ⟨rows, h1, h2, h3⟩ := arrowsOf_spec o ⟨f.data, [("flow", c.map some)]⟩ h
  refine ⟨_, rows, viewFlow_one plot o f _ hs _ h3 (hp _), h1, h2, rfl, rfl, by rw [hl], by rw [hl], by simp, fun k hk => ?_⟩
  have hlt : rows[k] < Flow.size f.data := ((h2 _).mp (List.getElem_mem hk)).1
  obtain ⟨w1, w2, w3⟩ := c3 _ hlt
  refine ⟨c.getD rows[k] 0, ?_, lt_of_le_of_ne w1 fun e => ?_, ?_⟩
  · rw [hc, weights_extra hn]
    simp [List.getD_eq_getElem?_getD, hk, c2, hlt]
  · have hd := ((h2 _).mp (List.getElem_mem hk)).2.1
    rw [hl] at hd
    exact hd.1 (w3.mp e.symm).1
  · rw [w2, hl]
    simp [List.getD_eq_getElem?_getD, hk]

/-- **C113, colouring by the radial flow.** With the centre of mass at `(cx, cy)`, the colour of an arrow at distance `ρ > 0` from it is
`(u (y - cy) - v (x - cx)) / ρ` (see C93: this is the flow around the centre, not away from it). -/
theorem C113_radial (plot : Figure → Bool) (hp : ∀ a, plot a = true) (o : FlowOpts) (hc : o.colour = some "radial") (hl : o.labels = ("U", "V"))
    (hco : o.coords = ("X", "Y")) (f : Flow) (h : CanShow o f.data) (hn : "radial" ∉ names f.data) (cx cy : ℚ) (hcom : centerOfMass f = .ok [cx, cy]) :
    ∃ (a : Figure) (rows : List ℕ), viewFlowfields plot o [f] = ([a], .ok ()) ∧ rows.Pairwise (· < ·) ∧ (∀ t, t ∈ rows ↔ DrawnRow o f.data t) ∧
      a.x = rows.map (val f.data "X") ∧ a.y = rows.map (val f.data "Y") ∧ a.u = rows.map (val f.data "U") ∧ a.v = rows.map (val f.data "V") ∧
      a.weights.length = rows.length ∧
      ∀ k, k < rows.length → ∃ w : ℝ, a.weights.getD k none = some w ∧ ∀ ρ : ℝ, 0 < ρ →
        ρ ^ 2 = (((a.x.getD k 0 - cx) ^ 2 + (a.y.getD k 0 - cy) ^ 2 : ℚ) : ℝ) →
        w * ρ = ((a.u.getD k 0 * (a.y.getD k 0 - cy) - a.v.getD k 0 * (a.x.getD k 0 - cx) : ℚ) : ℝ) := by
  have hx : "X" ∈ names f.data := by have := h.x; rwa [hco] at this
  have hy : "Y" ∈ names f.data := by have := h.y; rwa [hco] at this
  have hu : "U" ∈ names f.data := by have := h.u; rwa [hl] at this
  have hv : "V" ∈ names f.data := by have := h.v; rwa [hl] at this
  obtain ⟨c, c1, c2, c3⟩ := (C93_radial_flow f.data (cx, cy) hx hy hu hv).2 hn
  have hs : colourFields o.colour f = .ok ⟨f.data, [("radial", c.map some)]⟩ := by
    unfold colourFields radialColour
    rw [hc, if_neg (by decide), if_neg (by decide), if_pos rfl, hcom, Gmx.ok_bind]
    simp only
    rw [c1]
    rfl
  obtain ⟨rows, h1, h2, h3⟩ := arrowsOf_spec o ⟨f.data, [("radial", c.map some)]⟩ h
  refine ⟨_, rows, viewFlow_one plot o f _ hs _ h3 (hp _), h1, h2, by rw [hco], by rw [hco], by rw [hl], by rw [hl], by simp, fun k hk => ?_⟩
  have hlt : rows[k] < Flow.size f.data := ((h2 _).mp (List.getElem_mem hk)).1
  refine ⟨c.getD rows[k] 0, ?_, fun ρ hρ hd => ?_⟩
  · rw [hc, weights_extra hn]
    simp [List.getD_eq_getElem?_getD, hk, c2, hlt]
  · have := c3 _ hlt ρ hρ
    rw [hl, hco]
    rw [hco] at hd
    simp only [List.getD_eq_getElem?_getD, List.getElem?_map, List.getElem?_eq_getElem hk, Option.map_some, Option.getD_some] at hd ⊢
    exact this hd

/-- The nodes drawn: with flow along both axes, within the limits and not below the cutoff. -/
def DrawnNode (o : FlowOpts) (r : Record) (sp : ℚ × ℚ) (x0 y0 : ℚ) (i j : ℕ) : Prop :=
  (atNode r o.labels.1 sp x0 y0 ("X", "Y") i j ≠ 0 ∧ atNode r o.labels.2 sp x0 y0 ("X", "Y") i j ≠ 0) ∧
    Within o.xlim.1 o.xlim.2 (x0 + sp.1 * (i : ℚ)) ∧ Within o.ylim.1 o.ylim.2 (y0 + sp.2 * (j : ℚ)) ∧
    ∀ l c, o.cutoffLabel = some l → o.cutoff = some c → c ≤ atNode r l sp x0 y0 ("X", "Y") i j

/-- The figure of data sorted onto the grid, with an added field as colour. -/
theorem figure_of_lattice (plot : Figure → Bool) (hp : ∀ a, plot a = true) (o : FlowOpts) (hco : o.coords = ("X", "Y")) (f : Flow) (sp : ℚ × ℚ) (x0 y0 : ℚ)
    (nx ny : ℕ) (h : CanShow o f.data) (s : Record) (hlat : Lattice s sp x0 y0 nx ny) (hn : names s = names f.data)
    (hval : ∀ l i j, i < nx → j < ny → val s l (j * nx + i) = atNode f.data l sp x0 y0 ("X", "Y") i j) (hnx : 0 < nx) (hny : 0 < ny)
    (c : Label) (hc : o.colour = some c) (hcn : c ∉ names f.data) (ws : List (Option ℝ)) (hs : colourFields o.colour f = .ok ⟨s, [(c, ws)]⟩) :
    ∃ nodes : List (ℕ × ℕ), nodes.Nodup ∧ (∀ i j, (i, j) ∈ nodes ↔ (i < nx ∧ j < ny) ∧ DrawnNode o f.data sp x0 y0 i j) ∧
      viewFlowfields plot o [f] = ([⟨nodes.map fun p => x0 + sp.1 * (p.1 : ℚ), nodes.map fun p => y0 + sp.2 * (p.2 : ℚ),
        nodes.map fun p => atNode f.data o.labels.1 sp x0 y0 ("X", "Y") p.1 p.2, nodes.map fun p => atNode f.data o.labels.2 sp x0 y0 ("X", "Y") p.1 p.2,
        nodes.map fun p => ws.getD (p.2 * nx + p.1) none⟩], .ok ()) := by
  have hpos : ∀ i j, i < nx → j < ny → val s "X" (j * nx + i) = x0 + sp.1 * (i : ℚ) ∧ val s "Y" (j * nx + i) = y0 + sp.2 * (j : ℚ) := by
    intro i j hi hj
    have h1 := hlat.x _ (grid_lt hi hj)
    have h2 := hlat.y _ (grid_lt hi hj)
    rw [grid_mod hi] at h1
    rw [grid_div hi] at h2
    exact ⟨h1, h2⟩
  have hshow : CanShow o s := by
    obtain ⟨-, -, h1, h2, h3, h4, h5⟩ := h
    exact ⟨hlat.wf, by rw [hlat.size]; positivity, by rw [hn]; exact h1, by rw [hn]; exact h2, by rw [hn]; exact h3, by rw [hn]; exact h4, by rw [hn]; exact h5⟩
  obtain ⟨rows, h1, h2, h3⟩ := arrowsOf_spec o ⟨s, [(c, ws)]⟩ hshow
  simp only at h2 h3
  have e : ∀ t, t / nx * nx + t % nx = t := fun t => by rw [Nat.mul_comm]; exact Nat.div_add_mod t nx
  have hin : ∀ t, t < nx * ny → t % nx < nx ∧ t / nx < ny := fun t ht =>
    ⟨Nat.mod_lt _ hnx, by rw [Nat.div_lt_iff_lt_mul hnx, Nat.mul_comm]; exact ht⟩
  have hrow : ∀ i j, i < nx → j < ny → (DrawnRow o s (j * nx + i) ↔ DrawnNode o f.data sp x0 y0 i j) := by
    intro i j hi hj
    unfold DrawnRow DrawnNode AboveCutoff
    rw [hco, hlat.size]
    simp only
    rw [(hpos i j hi hj).1, (hpos i j hi hj).2, hval _ i j hi hj, hval _ i j hi hj, and_iff_right (grid_lt hi hj)]
    constructor
    · rintro ⟨a, b, d, g⟩
      exact ⟨a, b, d, fun l c' hl hc' => by rw [← hval l i j hi hj]; exact g l c' (by rw [hl, hc'])⟩
    · rintro ⟨a, b, d, g⟩
      refine ⟨a, b, d, fun l c' hl => ?_⟩
      rw [hval l i j hi hj]
      exact g l c' (Prod.mk.inj hl).1 (Prod.mk.inj hl).2
  refine ⟨rows.map fun t => (t % nx, t / nx), ?_, ?_, ?_⟩
  · refine List.Nodup.map_on ?_ (h1.imp fun hab => Nat.ne_of_lt hab)
    intro a _ b _ hab
    rw [← e a, ← e b, (Prod.mk.inj hab).1, (Prod.mk.inj hab).2]
  · intro i j
    rw [List.mem_map]
    constructor
    · rintro ⟨t, ht, hij⟩
      have hd := (h2 t).mp ht
      have hlt := hd.1
      rw [hlat.size] at hlt
      obtain ⟨a, b⟩ := hin t hlt
      obtain ⟨rfl, rfl⟩ := Prod.mk.inj hij
      exact ⟨⟨a, b⟩, (hrow _ _ a b).mp (by rw [e]; exact hd)⟩
    · rintro ⟨⟨hi, hj⟩, hd⟩
      exact ⟨j * nx + i, (h2 _).mpr ((hrow i j hi hj).mpr hd), by rw [grid_mod hi, grid_div hi]⟩
  · rw [viewFlow_one plot o f _ hs _ h3 (hp _)]
    have hmap : ∀ {V : Type} (F G : ℕ → V), (∀ t, t < nx * ny → F t = G t) → rows.map F = rows.map G := by
      intro V F G hFG
      refine List.map_congr_left fun t ht => hFG t ?_
      have := ((h2 t).mp ht).1
      rwa [hlat.size] at this
    simp only [List.map_map]
    rw [hco]
    refine congrArg₂ Prod.mk (congrArg (fun a => [a]) ?_) rfl
    rw [Figure.mk.injEq]
    refine ⟨hmap _ _ fun t ht => ?_, hmap _ _ fun t ht => ?_, hmap _ _ fun t ht => ?_, hmap _ _ fun t ht => ?_, hmap _ _ fun t ht => ?_⟩
    · obtain ⟨a, b⟩ := hin t ht
      have := (hpos _ _ a b).1
      rw [e] at this
      exact this
    · obtain ⟨a, b⟩ := hin t ht
      have := (hpos _ _ a b).2
      rw [e] at this
      exact this
    · obtain ⟨a, b⟩ := hin t ht
      have := hval o.labels.1 _ _ a b
      rw [e] at this
      exact this
    · obtain ⟨a, b⟩ := hin t ht
      have := hval o.labels.2 _ _ a b
      rw [e] at this
      exact this
    · rw [hc, weights_extra (by rw [hn]; exact hcn)]
      simp only [Function.comp]
      rw [e]

/-- **C113, colouring by the evaporation, all bins.** As for square bins, but the slope of the density along x is multiplied by `dx / dy` and that along y by
`dy / dx` (C71), so that the colour is `U ∂M/∂x + V ∂M/∂y` only if the bins are square. -/
theorem C113_evaporation_as_coded (plot : Figure → Bool) (hp : ∀ a, plot a = true) (o : FlowOpts) (hc : o.colour = some "evaporation") (hco : o.coords = ("X", "Y"))
    (f : Flow) (sp : ℚ × ℚ) (x0 y0 : ℚ) (nx ny : ℕ) (hf : FullMap f sp x0 y0 nx ny) (hx : 0 < sp.1) (hy : 0 < sp.2) (hnx : 2 ≤ nx) (hny : 2 ≤ ny) (h : CanShow o f.data)
    (hm : "M" ∈ names f.data) (hu : "U" ∈ names f.data) (hv : "V" ∈ names f.data) (hn : "evaporation" ∉ names f.data) :
    ∃ nodes : List (ℕ × ℕ), nodes.Nodup ∧ (∀ i j, (i, j) ∈ nodes ↔ (i < nx ∧ j < ny) ∧ DrawnNode o f.data sp x0 y0 i j) ∧
      viewFlowfields plot o [f] = ([⟨nodes.map fun p => x0 + sp.1 * (p.1 : ℚ), nodes.map fun p => y0 + sp.2 * (p.2 : ℚ),
        nodes.map fun p => atNode f.data o.labels.1 sp x0 y0 ("X", "Y") p.1 p.2, nodes.map fun p => atNode f.data o.labels.2 sp x0 y0 ("X", "Y") p.1 p.2,
        nodes.map fun p => some ((
          atNode f.data "U" sp x0 y0 ("X", "Y") p.1 p.2 * (slope nx (fun k => x0 + sp.1 * (k : ℚ)) (fun a => atNode f.data "M" sp x0 y0 ("X", "Y") a p.2) p.1 * (sp.1 / sp.2)) +
          atNode f.data "V" sp x0 y0 ("X", "Y") p.1 p.2 * (slope ny (fun k => y0 + sp.2 * (k : ℚ)) (fun b => atNode f.data "M" sp x0 y0 ("X", "Y") p.1 b) p.2 * (sp.2 / sp.1)) : ℚ) : ℝ)⟩], .ok ()) := by
  obtain ⟨s, m, e, hlat, hns, hval, hmc⟩ := massOnGrid_eq f sp x0 y0 nx ny hf hx hy hnx hny hm
  obtain ⟨g, ev, h1, -, h3, h4⟩ := (C71_as_coded f sp x0 y0 nx ny hf hx hy hnx hny hm).2 ⟨hn, hu, hv⟩
  have hgs : g = ⟨s, f.info⟩ := by
    unfold evaporation at h1
    rw [e, Gmx.ok_bind] at h1
    simp only at h1
    obtain ⟨us, -, h1⟩ := Simple.bind_eq_ok h1
    obtain ⟨vs, -, h1⟩ := Simple.bind_eq_ok h1
    obtain ⟨u, -, h1⟩ := Simple.bind_eq_ok h1
    cases h1
    rfl
  subst hgs
  obtain ⟨nodes, n1, n2, n3⟩ := figure_of_lattice plot hp o hco f sp x0 y0 nx ny h s hlat hns hval (by omega) (by omega) "evaporation" hc hn
    (ev.map fun v => v.map fun q : ℚ => (q : ℝ)) (by
      unfold colourFields
      rw [hc, if_neg (by decide), if_neg (by decide), if_neg (by decide), if_pos rfl, h1]
      rfl)
  refine ⟨nodes, n1, n2, ?_⟩
  rw [n3]
  refine congrArg₂ Prod.mk (congrArg (fun a => [a]) ?_) rfl
  rw [Figure.mk.injEq]
  refine ⟨rfl, rfl, rfl, rfl, List.map_congr_left fun p hpn => ?_⟩
  obtain ⟨i, j⟩ := p
  obtain ⟨⟨hi, hj⟩, -⟩ := (n2 i j).mp hpn
  obtain ⟨-, hv'⟩ := h4 i j hi hj
  have hlen : j * nx + i < ev.length := by rw [h3]; exact grid_lt hi hj
  simp only
  rw [List.getD_eq_getElem?_getD, List.getElem?_map, List.getElem?_eq_getElem hlen]
  rw [List.getD_eq_getElem?_getD, List.getElem?_eq_getElem hlen] at hv'
  simp only [Option.getD_some] at hv'
  simp only [Option.map_some, Option.getD_some, hv', Option.map_some]

/-- **C113, colouring by the evaporation, square bins.** On a full grid (rows in any order) the arrows are those of the drawn nodes, each
once, and their colour is `U ∂M/∂x + V ∂M/∂y` at their own node, with the slopes of the density along the two axes (for bins that
are not square see C71). -/
theorem C113_evaporation_partial (plot : Figure → Bool) (hp : ∀ a, plot a = true) (o : FlowOpts) (hc : o.colour = some "evaporation") (hco : o.coords = ("X", "Y"))
    (f : Flow) (d x0 y0 : ℚ) (nx ny : ℕ) (hf : FullMap f (d, d) x0 y0 nx ny) (hd : 0 < d) (hnx : 2 ≤ nx) (hny : 2 ≤ ny) (h : CanShow o f.data)
    (hm : "M" ∈ names f.data) (hu : "U" ∈ names f.data) (hv : "V" ∈ names f.data) (hn : "evaporation" ∉ names f.data) :
    ∃ nodes : List (ℕ × ℕ), nodes.Nodup ∧ (∀ i j, (i, j) ∈ nodes ↔ (i < nx ∧ j < ny) ∧ DrawnNode o f.data (d, d) x0 y0 i j) ∧
      viewFlowfields plot o [f] = ([⟨nodes.map fun p => x0 + d * (p.1 : ℚ), nodes.map fun p => y0 + d * (p.2 : ℚ),
        nodes.map fun p => atNode f.data o.labels.1 (d, d) x0 y0 ("X", "Y") p.1 p.2, nodes.map fun p => atNode f.data o.labels.2 (d, d) x0 y0 ("X", "Y") p.1 p.2,
        nodes.map fun p => some ((
          atNode f.data "U" (d, d) x0 y0 ("X", "Y") p.1 p.2 * slope nx (fun k => x0 + d * (k : ℚ)) (fun a => atNode f.data "M" (d, d) x0 y0 ("X", "Y") a p.2) p.1 +
          atNode f.data "V" (d, d) x0 y0 ("X", "Y") p.1 p.2 * slope ny (fun k => y0 + d * (k : ℚ)) (fun b => atNode f.data "M" (d, d) x0 y0 ("X", "Y") p.1 b) p.2 : ℚ) : ℝ)⟩], .ok ()) := by
  have := C113_evaporation_as_coded plot hp o hc hco f (d, d) x0 y0 nx ny hf hd hd hnx hny h hm hu hv hn
  simpa only [div_self hd.ne', mul_one] using this

/-- **C113, colouring by the viscous dissipation.** On a full grid (rows in any order) of at least 3 × 3 bins the arrows are those of the
drawn nodes, each once, and their colour is the dissipation, weighted by mass, that `sample_viscous_dissipation` gives for their
own node (C42); it is non-negative in all bins with mass. -/
theorem C113_dissipation (plot : Figure → Bool) (hp : ∀ a, plot a = true) (o : FlowOpts) (hc : o.colour = some "visc") (hco : o.coords = ("X", "Y"))
    (f : Flow) (sp : ℚ × ℚ) (x0 y0 : ℚ) (nx ny : ℕ) (hf : FullMap f sp x0 y0 nx ny) (hx : 0 < sp.1) (hy : 0 < sp.2) (hnx : 3 ≤ nx) (hny : 3 ≤ ny)
    (h : CanShow o f.data) (hm : "M" ∈ names f.data) (hu : "U" ∈ names f.data) (hv : "V" ∈ names f.data) (hn : "visc" ∉ names f.data) :
    ∃ (nodes : List (ℕ × ℕ)) (g : Flow) (d : List (Option ℚ)), viscousDissipation f (877 / 1000000) ("X", "Y") ("U", "V") (some "M") = .ok (g, d) ∧
      nodes.Nodup ∧ (∀ i j, (i, j) ∈ nodes ↔ (i < nx ∧ j < ny) ∧ DrawnNode o f.data sp x0 y0 i j) ∧
      (∀ i j, i < nx → j < ny → (val g.data "X" (j * nx + i) = x0 + sp.1 * (i : ℚ) ∧ val g.data "Y" (j * nx + i) = y0 + sp.2 * (j : ℚ)) ∧
        (atNode f.data "M" sp x0 y0 ("X", "Y") i j ≠ 0 → ∃ v, d.getD (j * nx + i) none = some v ∧ 0 ≤ v)) ∧
      viewFlowfields plot o [f] = ([⟨nodes.map fun p => x0 + sp.1 * (p.1 : ℚ), nodes.map fun p => y0 + sp.2 * (p.2 : ℚ),
        nodes.map fun p => atNode f.data o.labels.1 sp x0 y0 ("X", "Y") p.1 p.2, nodes.map fun p => atNode f.data o.labels.2 sp x0 y0 ("X", "Y") p.1 p.2,
        nodes.map fun p => (d.getD (p.2 * nx + p.1) none).map fun q : ℚ => (q : ℝ)⟩], .ok ()) := by
  obtain ⟨g, d, h1, -, hns, hlat, hval, hlen, hd⟩ := viscous_eq f (877 / 1000000) sp x0 y0 nx ny ("X", "Y") ("U", "V") (some "M") hf hx hy hnx hny hu hv
    (by intro w hw; cases hw; exact hm)
  obtain ⟨nodes, n1, n2, n3⟩ := figure_of_lattice plot hp o hco f sp x0 y0 nx ny h g.data hlat hns hval (by omega) (by omega) "visc" hc hn
    (d.map fun v => v.map fun q : ℚ => (q : ℝ)) (by
      unfold colourFields
      rw [hc, if_neg (by decide), if_pos rfl]
      unfold viscosity
      rw [h1, Gmx.ok_bind]
      simp only
      rw [newName_ok (by rw [hns]; exact hn), Gmx.ok_bind])
  refine ⟨nodes, g, d, h1, n1, n2, fun i j hi hj => ⟨?_, fun hM => ?_⟩, ?_⟩
  · have h1 := hlat.x _ (grid_lt hi hj)
    have h2 := hlat.y _ (grid_lt hi hj)
    rw [grid_mod hi] at h1
    rw [grid_div hi] at h2
    exact ⟨h1, h2⟩
  · have := hd i j hi hj
    rw [if_neg] at this
    · exact ⟨_, this, div_nonneg (formula_nonneg (by norm_num) _ _ _ _) (sq_nonneg _)⟩
    · exact hM
  · rw [n3]
    refine congrArg₂ Prod.mk (congrArg (fun a => [a]) ?_) rfl
    rw [Figure.mk.injEq]
    refine ⟨rfl, rfl, rfl, rfl, List.map_congr_left fun p hpn => ?_⟩
    obtain ⟨i, j⟩ := p
    obtain ⟨⟨hi, hj⟩, -⟩ := (n2 i j).mp hpn
    have hl : j * nx + i < d.length := by rw [hlen]; exact grid_lt hi hj
    simp [List.getD_eq_getElem?_getD, hl]

/-! ## The theorems apply -/

/-- Square bins, in the order of the columns, with one bin at rest. -/
def exSq : Flow := ⟨[("X", [0, 0, 0, 2, 2, 2, 4, 4, 4]), ("Y", [1, 3, 5, 1, 3, 5, 1, 3, 5]), ("U", [1, 2, 0, 3, 1, 1, 2, 2, 1]),
  ("V", [2, 1, 0, 1, 1, 2, 1, 1, 1]), ("M", [1, 1, 0, 2, 1, 1, 1, 3, 1])], { shape := some (3, 3), spacing := some (2, 2) }⟩

theorem exSq_full : FullMap exSq (2, 2) 0 1 3 3 :=
  ⟨fullGrid_of_rows exSq.data (2, 2) 0 1 3 3 ("X", "Y") 9 rfl ⟨by decide, by decide⟩ (by decide) (by decide) (by decide) (by decide)
    (by decide +kernel) (by decide +kernel), rfl, rfl⟩

/-- The options of the calls below: colour, cutoff and a limit. -/
def exFlowOpts (c : Label) : FlowOpts := { colour := some c, cutoff := some 1, xlim := (some 1, none) }

theorem exSq_show (c : Label) : CanShow (exFlowOpts c) exSq.data :=
  ⟨⟨by decide, by decide⟩, by decide, (by decide : "X" ∈ names exSq.data), (by decide : "Y" ∈ names exSq.data), (by decide : "U" ∈ names exSq.data), (by decide : "V" ∈ names exSq.data), by intro l hl; cases hl; decide +kernel⟩

/-- The example meets the hypotheses of all theorems on colours, and with them those of C112 (a series of two maps). -/
example : (∃ rows : List ℕ, rows.Pairwise (· < ·) ∧ (∀ t, t ∈ rows ↔ DrawnRow (exFlowOpts "M") exSq.data t)) ∧ centerOfMass exSq = .ok [28 / 11, 29 / 11] ∧
    (∃ a, viewFlowfields (fun _ => true) (exFlowOpts "flow") [exSq, exSq] = ([a, a], .ok ())) ∧
    (∃ a, viewFlowfields (fun _ => true) (exFlowOpts "radial") [exSq] = ([a], .ok ())) ∧
    (∃ a, viewFlowfields (fun _ => true) (exFlowOpts "evaporation") [exSq] = ([a], .ok ())) ∧
    (∃ a, viewFlowfields (fun _ => true) (exFlowOpts "visc") [exSq] = ([a], .ok ())) := by
  have hcom : centerOfMass exSq = .ok [28 / 11, 29 / 11] := by decide +kernel
  refine ⟨?_, hcom, ?_, ?_, ?_, ?_⟩
  · obtain ⟨rows, h1, h2, -⟩ := C113_field (fun _ => true) (fun _ => rfl) (exFlowOpts "M") (by intro c hc; cases hc; decide) exSq (exSq_show _)
    exact ⟨rows, h1, h2⟩
  · obtain ⟨a, -, h, -⟩ := C113_flow (fun _ => true) (fun _ => rfl) (exFlowOpts "flow") rfl rfl exSq (exSq_show _) (by decide +kernel)
    exact ⟨a, (C112_one_figure_per_map _ _ [exSq, exSq] [a, a] (.cons h (.cons h .nil))).1⟩
  · obtain ⟨a, -, h, -⟩ := C113_radial (fun _ => true) (fun _ => rfl) (exFlowOpts "radial") rfl rfl rfl exSq (exSq_show _) (by decide +kernel) _ _ hcom
    exact ⟨a, h⟩
  · obtain ⟨nodes, -, -, h⟩ := C113_evaporation_partial (fun _ => true) (fun _ => rfl) (exFlowOpts "evaporation") rfl rfl exSq 2 0 1 3 3 exSq_full (by norm_num) (by norm_num)
      (by norm_num) (exSq_show _) (by decide +kernel) (by decide +kernel) (by decide +kernel) (by decide +kernel)
    exact ⟨_, h⟩
  · obtain ⟨nodes, g, d, -, -, -, -, h⟩ := C113_dissipation (fun _ => true) (fun _ => rfl) (exFlowOpts "visc") rfl rfl exSq (2, 2) 0 1 3 3 exSq_full (by norm_num) (by norm_num)
      (by norm_num) (by norm_num) (exSq_show _) (by decide +kernel) (by decide +kernel) (by decide +kernel) (by decide +kernel)
    exact ⟨_, h⟩

/-- A drawn row and one that is not: below the limit. -/
example : DrawnRow (exFlowOpts "M") exSq.data 3 ∧ ¬ DrawnRow (exFlowOpts "M") exSq.data 0 := by
  refine ⟨⟨by decide, ⟨by decide +kernel, by decide +kernel⟩, ⟨?_, ?_⟩, ⟨?_, ?_⟩, ?_⟩, fun h => ?_⟩
  · intro a ha; cases ha; decide +kernel
  · intro a ha; cases ha
  · intro a ha; cases ha
  · intro a ha; cases ha
  · intro l c h; cases h; decide +kernel
  · have := h.2.2.1.1 1 rfl
    revert this
    decide +kernel

/-- A map without the flow's fields ends the drawing without an error if it is not coloured, and with one if it is coloured by the flow. -/
example : viewFlowfields (fun _ => true) {} [⟨[("X", [0]), ("Y", [0]), ("M", [1])], {}⟩, exSq] = ([], .ok ()) ∧
    viewFlowfields (fun _ => true) { colour := some "flow" } [⟨[("X", [0]), ("Y", [0]), ("M", [1])], {}⟩, exSq] = ([], .error .valueError) := by
  constructor <;> rfl

end Strata.View
