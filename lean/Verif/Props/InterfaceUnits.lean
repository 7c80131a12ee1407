import Verif.Spec.InterfaceUnits
import Verif.Proofs.Interface
import Verif.Props.Interface
/-! # C147: the interface does not depend on the units -/
namespace Strata.Interface
open Strata Strata.Flow

variable {u : Units}

theorem height_lt (h : u.Valid) (y z : ℚ) : u.height y < u.height z ↔ y < z := by
  unfold Units.height
  rw [add_lt_add_iff_right, mul_lt_mul_iff_right₀ h.scale]

theorem height_le (h : u.Valid) (y z : ℚ) : u.height y ≤ u.height z ↔ y ≤ z := by
  rw [← not_lt, height_lt h, not_lt]

theorem value_le (h : u.Valid) (y z : ℚ) : u.value y ≤ u.value z ↔ y ≤ z := by
  unfold Units.value
  rw [add_le_add_iff_right, mul_le_mul_iff_right₀ h.vscale]

theorem height_inj (h : u.Valid) {y z : ℚ} (e : u.height y = u.height z) : y = z :=
  le_antisymm ((height_le h _ _).mp e.le) ((height_le h _ _).mp e.ge)

theorem value_inj (h : u.Valid) {y z : ℚ} (e : u.value y = u.value z) : y = z :=
  le_antisymm ((value_le h _ _).mp e.le) ((value_le h _ _).mp e.ge)

theorem lexLE_conv (h : u.Valid) (l m : List ℚ) (f : ℕ → ℚ → ℚ) (hf : ∀ i, StrictMono (f i)) :
    lexLE (l.mapIdx f) (m.mapIdx f) = lexLE l m := by
  induction l generalizing m f with
  | nil => simp [lexLE]
  | cons a l ih =>
    cases m with
    | nil => simp [lexLE]
    | cons b m =>
      rw [List.mapIdx_cons, List.mapIdx_cons]
      simp only [lexLE, (hf 0).lt_iff_lt]
      rw [ih m (fun i => f (i + 1)) fun i => hf (i + 1)]

theorem mapIdx_inj (l m : List ℚ) (f : ℕ → ℚ → ℚ) (hf : ∀ i, StrictMono (f i))
    (e : l.mapIdx f = m.mapIdx f) : l = m := by
  induction l generalizing m f with
  | nil => cases m <;> simp_all
  | cons a l ih =>
    cases m with
    | nil => simp at e
    | cons b m =>
      rw [List.mapIdx_cons, List.mapIdx_cons, List.cons.injEq] at e
      rw [(hf 0).injective e.1, ih m (fun i => f (i + 1)) (fun i => hf (i + 1)) e.2]

theorem cell_inj (h : u.Valid) : Function.Injective u.cell := by
  rintro ⟨x, y, v, f⟩ ⟨x', y', v', f'⟩ e
  unfold Units.cell at e
  simp only [Cell.mk.injEq] at e
  obtain ⟨e1, e2, e3, e4⟩ := e
  have hx : x = x' := mul_left_cancel₀ h.scale.ne' (add_right_cancel e1)
  rw [hx, height_inj h e2, value_inj h e3, mapIdx_inj _ _ _ h.other e4]

theorem row_conv (s : System) (i : ℕ) (hi : i < s.length) : row (u.map s) i = u.cell (row s i) := by
  rw [row_eq_getElem _ _ (by simpa [Units.map] using hi), row_eq_getElem _ _ hi]
  simp [Units.map]

theorem length_conv (s : System) : (u.map s).length = s.length := by simp [Units.map]

theorem near_conv (h : u.Valid) (r : ℚ) (a b : Cell) : Near (u.len r) (u.cell a) (u.cell b) ↔ Near r a b := by
  unfold Near Units.cell Units.len Units.height
  simp only
  rw [show (u.scale * b.x + u.x0 - (u.scale * a.x + u.x0)) ^ 2 + (u.scale * b.y + u.y0 - (u.scale * a.y + u.y0)) ^ 2 =
    u.scale ^ 2 * ((b.x - a.x) ^ 2 + (b.y - a.y) ^ 2) by ring, mul_pow, mul_le_mul_iff_right₀ (pow_pos h.scale 2)]

theorem counts_conv (h : u.Valid) (r c : ℚ) (a b : Cell) :
    counts (u.len r) (u.value c) (u.cell a) (u.cell b) = counts r c a b := by
  unfold counts
  apply decide_eq_decide.mpr
  rw [near_conv h, show (u.cell b).v = u.value b.v from rfl, value_le h]

theorem liquidCell_conv (h : u.Valid) (s : System) (r c : ℚ) (b : ℤ) (a : Cell) :
    LiquidCell (s.map u.cell) (u.len r) (u.value c) b (u.cell a) ↔ LiquidCell s r c b a := by
  unfold LiquidCell
  rw [List.countP_map, show (u.cell a).v = u.value a.v from rfl, value_le h]
  have : counts (u.len r) (u.value c) (u.cell a) ∘ u.cell = counts r c a := funext fun d => counts_conv h r c a d
  rw [this]

theorem idxOf_map_inj {f : Cell → Cell} (hf : Function.Injective f) (c : Cell) (l : System) :
    indexOf (f c) (l.map f) = indexOf c l := by
  unfold indexOf
  induction l with
  | nil => rfl
  | cons a l ih =>
    rw [List.map_cons, List.idxOf_cons, List.idxOf_cons, ih]
    by_cases e : a = c
    · simp [e]
    · have : f a ≠ f c := fun q => e (hf q)
      rw [beq_false_of_ne e, beq_false_of_ne this]

/-- The criterion for a member of the list that is searched. -/
theorem droplet_conv (h : u.Valid) (data : System) (a : Cell) (ha : a ∈ data) (r c : ℚ) (b : ℤ) :
    cellIsDroplet (indexOf (u.cell a) (data.map u.cell)) (data.map u.cell) (u.len r) (u.value c) b =
      cellIsDroplet (indexOf a data) data r c b := by
  have ha' : u.cell a ∈ data.map u.cell := List.mem_map_of_mem ha
  rw [cellIsDroplet_eq (indexOf _ _) _ (List.idxOf_lt_length_of_mem ha'), row_indexOf ha',
    cellIsDroplet_eq (indexOf _ _) _ (List.idxOf_lt_length_of_mem ha), row_indexOf ha]
  exact decide_eq_decide.mpr (liquidCell_conv h data r c b a)

theorem sortLayer_conv (h : u.Valid) (l : System) : sortLayer (l.map u.cell) = (sortLayer l).map u.cell := by
  unfold sortLayer
  symm
  apply List.map_insertionSort
  intro p _ q _
  have hx : ∀ a b : Cell, (u.cell a).x < (u.cell b).x ↔ a.x < b.x := by
    intro a b
    unfold Units.cell
    rw [add_lt_add_iff_right, mul_lt_mul_iff_right₀ h.scale]
  simp only [lexLE, hx]
  rw [show (u.cell p).fields = p.fields.mapIdx u.other from rfl, show (u.cell q).fields = q.fields.mapIdx u.other from rfl,
    lexLE_conv h _ _ _ h.other]

theorem npUnique_conv (g : ℚ → ℚ) (hg : StrictMono g) (l : List ℚ) : npUnique (l.map g) = (npUnique l).map g := by
  have h1 := pairwise_npUnique (l.map g)
  have h2 : ((npUnique l).map g).Pairwise (· < ·) := by
    rw [List.pairwise_map]
    exact (pairwise_npUnique l).imp fun q => hg q
  refine List.Pairwise.eq_of_mem_iff h1 h2 fun a => ?_
  simp only [mem_npUnique, List.mem_map]

theorem inLims_conv (h : u.Valid) (lo hi : Option ℚ) (y : ℚ) :
    inLims (lo.map u.height) (hi.map u.height) (u.height y) = inLims lo hi y := by
  unfold inLims
  cases lo <;> cases hi <;> simp [height_le h]

theorem height_strictMono (h : u.Valid) : StrictMono u.height := fun a b => (height_lt h a b).mpr

theorem yValues_conv (h : u.Valid) (Y : List ℚ) (lo hi : Option ℚ) :
    yValues (Y.map u.height) (lo.map u.height) (hi.map u.height) = (yValues Y lo hi).map u.height := by
  unfold yValues
  rw [npUnique_conv _ (height_strictMono h), List.filter_map]
  congr 2
  funext y
  exact inLims_conv h lo hi y

theorem rows_conv (p p' : Cell → Bool) (hp : ∀ c, p' (u.cell c) = p c) (s : System) :
    ((List.range (u.map s).length).filter fun i => p' (row (u.map s) i)) =
      (List.range s.length).filter fun i => p (row s i) := by
  rw [length_conv]
  apply List.filter_congr
  intro i hi
  rw [row_conv s i (by simpa using hi), hp]

theorem filter_conv (p p' : Cell → Bool) (hp : ∀ c, p' (u.cell c) = p c) (s : System) :
    (s.map u.cell).filter p' = (s.filter p).map u.cell := by
  rw [List.filter_map]
  congr 2
  funext c
  exact hp c

theorem traverse_conv (h : u.Valid) (layer data : System) (hsub : ∀ c ∈ layer, c ∈ data) (r c : ℚ) (b : ℤ) :
    traverseLayer (layer.map u.cell) (data.map u.cell) (u.len r) (u.value c) b = traverseLayer layer data r c b := by
  rw [traverse_spec _ _ hsub, traverse_spec _ _ (by
    intro c hc
    obtain ⟨d, hd, rfl⟩ := List.mem_map.mp hc
    exact List.mem_map_of_mem (hsub d hd)), List.find?_map, Option.map_map]
  have e : ((fun a => decide (LiquidCell (data.map u.cell) (u.len r) (u.value c) b a)) ∘ u.cell) =
      fun a => decide (LiquidCell data r c b a) := by
    funext a
    exact decide_eq_decide.mpr (liquidCell_conv h data r c b a)
  rw [e]
  congr 1
  funext a
  exact idxOf_map_inj (cell_inj h) a data

theorem outsideIn_conv (h : u.Valid) (s : System) (r c : ℚ) (b : ℤ) (lims : Option ℚ × Option ℚ) :
    outsideIn (u.map s) (u.len r) (u.value c) b (lims.1.map u.height, lims.2.map u.height) =
      outsideIn s r c b lims := by
  have hv : ∀ d : Cell, decide ((u.cell d).v ≥ u.value c) = decide (d.v ≥ c) := by
    intro d
    apply decide_eq_decide.mpr
    rw [ge_iff_le, ge_iff_le, show (u.cell d).v = u.value d.v from rfl, value_le h]
  have hrows := rows_conv (u := u) (fun d => decide (d.v ≥ c)) (fun d => decide (d.v ≥ u.value c)) hv s
  have hmap : ∀ idx : List ℕ, (∀ i ∈ idx, i < s.length) →
      idx.map (row (u.map s)) = (idx.map (row s)).map u.cell := by
    intro idx hidx
    rw [List.map_map]
    exact List.map_congr_left fun i hi => row_conv s i (hidx i hi)
  unfold outsideIn
  simp only
  rw [hrows, hmap _ (fun i hi => by simpa using (List.mem_filter.mp hi).1)]
  generalize hd : List.map (row s) ((List.range s.length).filter fun i => decide ((row s i).v ≥ c)) = data
  have hY : (data.map u.cell).map (·.y) = (data.map (·.y)).map u.height := by
    rw [List.map_map, List.map_map]; rfl
  rw [hY, yValues_conv h, List.filterMap_map]
  congr 1
  funext y
  simp only [Function.comp]
  have hl : (data.map u.cell).filter (fun d => decide (d.y = u.height y)) =
      (data.filter fun d => decide (d.y = y)).map u.cell := by
    apply filter_conv
    intro d
    apply decide_eq_decide.mpr
    exact ⟨fun e => height_inj h e, fun e => congrArg u.height e⟩
  have hsub : ∀ d ∈ sortLayer (data.filter fun d => decide (d.y = y)), d ∈ data := by
    intro d hd
    rw [mem_sortLayer] at hd
    exact (List.mem_filter.mp hd).1
  rw [hl, sortLayer_conv h, traverse_conv h _ _ hsub, ← List.map_reverse,
    traverse_conv h _ _ (fun d hd => hsub d (by simpa using hd))]

theorem pbcCopies_conv (h : u.Valid) (h0 : u.x0 = 0) (s : System) (r box : ℚ) :
    pbcCopies (u.map s) (u.len r) (u.len box) = (pbcCopies s r box).map u.cell := by
  unfold pbcCopies Units.map
  rw [List.map_append, filter_conv (fun d => decide (d.x ≤ r)) _ (by
      intro d
      apply decide_eq_decide.mpr
      unfold Units.cell Units.len
      simp only [h0, add_zero]
      rw [mul_le_mul_iff_right₀ h.scale]),
    filter_conv (fun d => decide (d.x ≥ box - r)) _ (by
      intro d
      apply decide_eq_decide.mpr
      unfold Units.cell Units.len
      simp only [h0, add_zero, ge_iff_le]
      rw [← mul_sub, mul_le_mul_iff_right₀ h.scale])]
  rw [List.map_map, List.map_map, List.map_map, List.map_map]
  congr 1
  · apply List.map_congr_left
    intro d _
    simp only [Function.comp, Units.cell, Units.len, Cell.mk.injEq, and_true]
    ring
  · apply List.map_congr_left
    intro d _
    simp only [Function.comp, Units.cell, Units.len, Cell.mk.injEq, and_true]
    ring

theorem ySlice_conv (h : u.Valid) (h0 : u.x0 = 0) (s : System) (r box y : ℚ) :
    ySlice (u.map s) (u.len r) (u.len box) (u.height y) = (ySlice s r box y).map u.cell := by
  unfold ySlice
  have hp : ∀ d : Cell, decide ((u.cell d).y ≤ u.height y + u.len r ∧ (u.cell d).y ≥ u.height y - u.len r) =
      decide (d.y ≤ y + r ∧ d.y ≥ y - r) := by
    intro d
    apply decide_eq_decide.mpr
    unfold Units.cell Units.height Units.len
    simp only [ge_iff_le]
    have e1 : u.scale * y + u.y0 + u.scale * r = u.scale * (y + r) + u.y0 := by ring
    have e2 : u.scale * y + u.y0 - u.scale * r = u.scale * (y - r) + u.y0 := by ring
    rw [e1, e2, add_le_add_iff_right, add_le_add_iff_right, mul_le_mul_iff_right₀ h.scale, mul_le_mul_iff_right₀ h.scale]
  rw [pbcCopies_conv h h0, List.map_append, filter_conv _ _ hp]
  unfold Units.map
  rw [filter_conv _ _ hp]

theorem longest_conv (h : u.Valid) (h0 : u.x0 = 0) (s : System) (r c : ℚ) (b : ℤ) (lims : Option ℚ × Option ℚ)
    (box : ℚ) :
    longestConnected (u.map s) (u.len r) (u.value c) b (lims.1.map u.height, lims.2.map u.height) (u.len box) =
      longestConnected s r c b lims box := by
  have hmap : ∀ idx : List ℕ, (∀ i ∈ idx, i < s.length) →
      idx.map (row (u.map s)) = (idx.map (row s)).map u.cell := by
    intro idx hidx
    rw [List.map_map]
    exact List.map_congr_left fun i hi => row_conv s i (hidx i hi)
  have hY : (u.map s).map (·.y) = (s.map (·.y)).map u.height := by
    unfold Units.map
    rw [List.map_map, List.map_map]; rfl
  have hneg : u.len r < 0 ↔ r < 0 := by
    unfold Units.len
    constructor
    · intro q; by_contra hc; rw [not_lt] at hc; exact absurd (mul_nonneg h.scale.le hc) (not_le.mpr q)
    · exact fun q => mul_neg_of_pos_of_neg h.scale q
  unfold longestConnected
  simp only
  rw [hY, yValues_conv h]
  by_cases hr : r < 0 ∧ yValues (s.map (·.y)) lims.1 lims.2 ≠ []
  · rw [if_pos hr, if_pos ⟨hneg.mpr hr.1, by simpa using hr.2⟩]
  · rw [if_neg hr, if_neg (by rw [hneg]; simpa using hr)]
    rw [List.filterMap_map]
    congr 1
    apply List.filterMap_congr
    intro y hy
    have hr0 : 0 ≤ r := by
      by_contra hc
      exact hr ⟨not_le.mp hc, List.ne_nil_of_mem hy⟩
    simp only [Function.comp]
    have hrows := rows_conv (u := u) (fun d => decide (d.y = y)) (fun d => decide (d.y = u.height y)) (by
      intro d
      apply decide_eq_decide.mpr
      exact ⟨fun e => height_inj h e, fun e => congrArg u.height e⟩) s
    rw [hrows, hmap _ (fun i hi => by simpa using (List.mem_filter.mp hi).1), sortLayer_conv h, ySlice_conv h h0]
    congr 2
    unfold filledCells
    rw [List.map_map]
    apply List.map_congr_left
    intro d hd
    simp only [Function.comp]
    apply droplet_conv h
    rw [mem_sortLayer] at hd
    obtain ⟨i, hi, rfl⟩ := List.mem_map.mp hd
    rw [List.mem_filter, List.mem_range] at hi
    have hiy : (row s i).y = y := by simpa using hi.2
    unfold ySlice
    rw [List.mem_append, List.mem_filter]
    left
    refine ⟨by rw [row_eq_getElem s i hi.1]; exact List.getElem_mem hi.1, ?_⟩
    rw [hiy]; simp [hr0]

theorem npMin_conv (g : ℚ → ℚ) (hg : ∀ a b, a ≤ b → g a ≤ g b) (l : List ℚ) : npMin (l.map g) = (npMin l).map g := by
  cases l with
  | nil => rfl
  | cons a l =>
    obtain ⟨m, hm⟩ := npMin_exists (l := a :: l) (by simp)
    rw [hm]
    obtain ⟨h1, h2⟩ := (npMin_ok_iff _ _).mp hm
    refine (npMin_ok_iff _ _).mpr ⟨List.mem_map_of_mem h1, ?_⟩
    intro x hx
    obtain ⟨y, hy, rfl⟩ := List.mem_map.mp hx
    exact hg _ _ (h2 y hy)

theorem npMax_conv (g : ℚ → ℚ) (hg : ∀ a b, a ≤ b → g a ≤ g b) (l : List ℚ) : npMax (l.map g) = (npMax l).map g := by
  cases l with
  | nil => rfl
  | cons a l =>
    obtain ⟨m, hm⟩ := npMax_exists (l := a :: l) (by simp)
    rw [hm]
    obtain ⟨h1, h2⟩ := (npMax_ok_iff _ _).mp hm
    refine (npMax_ok_iff _ _).mpr ⟨List.mem_map_of_mem h1, ?_⟩
    intro x hx
    obtain ⟨y, hy, rfl⟩ := List.mem_map.mp hx
    exact hg _ _ (h2 y hy)

theorem getCutoff_conv (h : u.Valid) (s : System) (c : Option ℚ) :
    getCutoff (c.map u.value) (u.map s) = (getCutoff c s).map u.value := by
  cases c with
  | some c => rfl
  | none =>
    have hv : (u.map s).map (·.v) = (s.map (·.v)).map u.value := by
      unfold Units.map
      rw [List.map_map, List.map_map]; rfl
    unfold getCutoff
    simp only [Option.map_none]
    rw [hv, npMin_conv _ (fun a b => (value_le h a b).mpr), npMax_conv _ (fun a b => (value_le h a b).mpr)]
    cases npMin (s.map (·.v)) with
    | error e => rfl
    | ok lo =>
      cases npMax (s.map (·.v)) with
      | error e => rfl
      | ok hi =>
        simp only [Except.map, bind, Except.bind]
        by_cases e : lo = hi
        · simp [e]
        · have e' : u.value lo ≠ u.value hi := fun q => e (value_inj h q)
          rw [if_pos e, if_pos e']
          simp only [Except.ok.injEq]
          unfold Units.value
          ring

theorem npDiff_conv (a p : ℚ) (l : List ℚ) : npDiff (l.map fun x => a * x + p) = (npDiff l).map (a * ·) := by
  match l with
  | [] => rfl
  | [_] => rfl
  | x :: y :: l =>
    have ih := npDiff_conv a p (y :: l)
    simp only [List.map_cons, npDiff] at ih ⊢
    rw [ih]
    congr 1
    ring

theorem getRadius_conv (h : u.Valid) (s : System) (r : Option ℚ) :
    getRadius (r.map u.len) (u.map s) = (getRadius r s).map u.len := by
  cases r with
  | some r => rfl
  | none =>
    have hx : (u.map s).map (·.x) = (s.map (·.x)).map fun x => u.scale * x + u.x0 := by
      unfold Units.map
      rw [List.map_map, List.map_map]; rfl
    unfold getRadius
    simp only [Option.map_none]
    rw [hx, npUnique_conv _ (fun a b q => by
      have := mul_lt_mul_of_pos_left q h.scale
      linarith), npDiff_conv, npMin_conv _ (fun a b q => mul_le_mul_of_nonneg_left q h.scale.le)]
    rfl

/-- **C147.** The same map in other units has the same interface: every row found and every error raised is the
same, whether the cut-off and the radius are given (in the new units) or left to their defaults.  The periodic
search needs the box to start where the coordinates do, so only the default search allows x to be moved. -/
theorem C147_interface (u : Units) (h : u.Valid) (s : System) (box : Option (ℚ × ℚ)) (o : Opts)
    (hx : o.longest = true → u.x0 = 0) :
    getInterface (u.map s) (u.box box) (u.opts o) = getInterface s box o := by
  unfold getInterface
  rw [show (u.opts o).cutoff = o.cutoff.map u.value from rfl, getCutoff_conv h,
    show (u.opts o).radius = o.radius.map u.len from rfl, getRadius_conv h,
    show (u.opts o).longest = o.longest from rfl, show (u.opts o).bins = o.bins from rfl,
    show (u.opts o).ylims = (o.ylims.1.map u.height, o.ylims.2.map u.height) from rfl]
  cases getCutoff o.cutoff s with
  | error e => cases e <;> rfl
  | ok c =>
    simp only [Except.map, bind, Except.bind]
    cases getRadius o.radius s with
    | error e => rfl
    | ok r =>
      simp only [Except.map]
      by_cases hl : o.longest = true
      · rw [if_pos hl, if_pos hl]
        cases box with
        | none => rfl
        | some b => exact longest_conv h (hx hl) s r c o.bins o.ylims b.1
      · rw [if_neg hl, if_neg hl, outsideIn_conv h]

/-- Whatever the settings, the rows reported are rows of the map, two of the same height within the limits. -/
theorem interface_rows (s : System) (box : Option (ℚ × ℚ)) (o : Opts) (out : List (ℕ × ℕ))
    (h : getInterface s box o = .ok out) :
    ∀ p ∈ out, p.1 < s.length ∧ p.2 < s.length ∧ (row s p.1).y = (row s p.2).y ∧
      Within o.ylims.1 o.ylims.2 (row s p.1).y := by
  unfold getInterface at h
  cases hc : getCutoff o.cutoff s with
  | error e =>
    rw [hc] at h
    cases e <;> simp only [Except.ok.injEq, reduceCtorEq] at h
    subst h
    simp
  | ok c =>
    rw [hc] at h
    simp only [bind, Except.bind] at h
    cases hr : getRadius o.radius s with
    | error e => rw [hr] at h; simp at h
    | ok r =>
      rw [hr] at h
      simp only at h
      by_cases hl : o.longest = true
      · rw [if_pos hl] at h
        cases box with
        | none => simp at h
        | some b =>
          simp only at h
          unfold longestConnected at h
          simp only at h
          by_cases hr : r < 0 ∧ yValues (s.map (·.y)) o.ylims.1 o.ylims.2 ≠ []
          · rw [if_pos hr] at h; simp at h
          · rw [if_neg hr] at h
            simp only [Except.ok.injEq] at h
            subst h
            intro p hp
            obtain ⟨y, hy, hp⟩ := List.mem_filterMap.mp hp
            obtain ⟨e, he, rfl⟩ := Option.map_eq_some_iff.mp hp
            obtain ⟨len, hrun, e2, _⟩ := (findEdges_spec _).2 e.1 e.2 he
            have hlen : (filledCells (sortLayer (((List.range s.length).filter fun i => decide ((row s i).y = y)).map
                (row s))) (ySlice s r b.1 y) r c o.bins).length =
                ((List.range s.length).filter fun i => decide ((row s i).y = y)).length := by
              unfold filledCells sortLayer
              rw [List.length_map, List.length_insertionSort, List.length_map]
            have h1 := hrun.2.2.1
            have h2 : e.2 < (filledCells (sortLayer (((List.range s.length).filter fun i => decide ((row s i).y = y)).map
                (row s))) (ySlice s r b.1 y) r c o.bins).length := by
              rw [e2]; exact Nat.mod_lt _ (by omega)
            rw [hlen] at h1 h2
            have hm : ∀ k, k < ((List.range s.length).filter fun i => decide ((row s i).y = y)).length →
                ((List.range s.length).filter fun i => decide ((row s i).y = y)).getD k 0 < s.length ∧
                (row s (((List.range s.length).filter fun i => decide ((row s i).y = y)).getD k 0)).y = y := by
              intro k hk
              have := List.getElem_mem hk
              rw [List.getD_eq_getElem?_getD, List.getElem?_eq_getElem hk, Option.getD_some]
              rw [List.mem_filter, List.mem_range] at this
              exact ⟨this.1, by simpa using this.2⟩
            obtain ⟨a1, a2⟩ := hm _ h1
            obtain ⟨b1, b2⟩ := hm _ h2
            refine ⟨a1, b1, by rw [a2, b2], ?_⟩
            rw [a2]
            exact ((mem_yValues _ _ _ _).mp hy).2
      · rw [if_neg hl] at h
        simp only [Except.ok.injEq] at h
        subst h
        intro p hp
        obtain ⟨g1, g2, g3, g4, _⟩ := (outsideIn_spec s r c o.bins o.ylims.1 o.ylims.2).2.1 p hp
        exact ⟨g3.1, g4.1, g1.symm, g2⟩

theorem closest_conv (h : u.Valid) (f : ℚ) (Y : List ℚ) :
    closest (u.height f) (Y.map u.height) = (closest f Y).map u.height := by
  have hd : ∀ a b : ℚ, |u.height a - u.height f| < |u.height b - u.height f| ↔ |a - f| < |b - f| := by
    intro a b
    have e : ∀ z, u.height z - u.height f = u.scale * (z - f) := by
      intro z; unfold Units.height; ring
    rw [e, e, abs_mul, abs_mul, abs_of_pos h.scale, mul_lt_mul_iff_right₀ h.scale]
  cases Y with
  | nil => rfl
  | cons y Y =>
    simp only [List.map_cons, closest, Except.map, Except.ok.injEq]
    induction Y generalizing y with
    | nil => rfl
    | cons z Y ih =>
      simp only [List.map_cons, List.foldl_cons]
      by_cases hz : |z - f| < |y - f|
      · rw [if_pos hz, if_pos ((hd z y).mpr hz)]
        exact ih z
      · rw [if_neg hz, if_neg fun q => hz ((hd z y).mp q)]
        exact ih y

theorem angleLoop_cons (s : System) (height ymin : ℚ) (a : Option ((ℚ × ℚ) × ℚ)) (l r : ℕ) (rest : List (ℕ × ℕ)) :
    angleLoop s height ymin a ((l, r) :: rest) =
      if (row s l).y - ymin ≤ height then
        angleLoop s height ymin (some (((row s l).x, (row s r).x), (row s l).y - ymin)) rest
      else match a with
        | some a => .ok a
        | none => .error .unboundLocalError := by
  cases a <;> simp only [angleLoop]

theorem angleLoop_conv (h : u.Valid) (s : System) (height ymin : ℚ) (rest : List (ℕ × ℕ))
    (hr : ∀ p ∈ rest, p.1 < s.length ∧ p.2 < s.length) (a : Option ((ℚ × ℚ) × ℚ)) :
    angleLoop (u.map s) (u.len height) (u.height ymin)
        (a.map fun t => ((u.scale * t.1.1 + u.x0, u.scale * t.1.2 + u.x0), u.len t.2)) rest =
      (angleLoop s height ymin a rest).map
        fun t => ((u.scale * t.1.1 + u.x0, u.scale * t.1.2 + u.x0), u.len t.2) := by
  induction rest generalizing a with
  | nil => cases a <;> rfl
  | cons p rest ih =>
    obtain ⟨l, r⟩ := p
    obtain ⟨hl, hr'⟩ := hr (l, r) (by simp)
    have ih' := ih fun p hp => hr p (by simp [hp])
    simp only at hl hr'
    have hy : (row (u.map s) l).y - u.height ymin = u.len ((row s l).y - ymin) := by
      rw [row_conv s l hl]
      unfold Units.cell Units.height Units.len
      ring
    have hle : u.len ((row s l).y - ymin) ≤ u.len height ↔ (row s l).y - ymin ≤ height := by
      unfold Units.len
      rw [mul_le_mul_iff_right₀ h.scale]
    rw [angleLoop_cons, angleLoop_cons, hy]
    by_cases hh : (row s l).y - ymin ≤ height
    · rw [if_pos hh, if_pos (hle.mpr hh), ← ih']
      rw [row_conv s l hl, row_conv s r hr']
      rfl
    · rw [if_neg hh, if_neg fun q => hh (hle.mp q)]
      cases a <;> rfl

theorem angleDeg_scale (a dy dx : ℚ) (ha : 0 < a) : angleDeg (a * dy) (a * dx) = angleDeg dy dx := by
  unfold angleDeg
  congr 2
  have : (⟨((a * dx : ℚ) : ℝ), ((a * dy : ℚ) : ℝ)⟩ : ℂ) = ((a : ℝ) : ℂ) * ⟨(dx : ℝ), (dy : ℝ)⟩ := by
    apply Complex.ext
    · simp
    · simp
  rw [this, Complex.arg_real_mul _ (by exact_mod_cast ha)]

/-- **C147.** The contact angles do not depend on the units either (they are the same degrees, and the same error is
raised), whether or not a floor is given. -/
theorem C147_angles (u : Units) (h : u.Valid) (s : System) (box : Option (ℚ × ℚ)) (height : ℚ) (floor : Option ℚ)
    (o : Opts) (hx : o.longest = true → u.x0 = 0) :
    contactAngle (u.map s) (u.box box) (u.len height) (floor.map u.height) (u.opts o) =
      contactAngle s box height floor o := by
  have hY : (u.map s).map (·.y) = (s.map (·.y)).map u.height := by
    unfold Units.map
    rw [List.map_map, List.map_map]; rfl
  have hfl : floorOf (floor.map u.height) (u.map s) = (floorOf floor s).map fun z => z.map u.height := by
    cases floor with
    | none => rfl
    | some f =>
      unfold floorOf
      simp only [Option.map_some]
      rw [hY, closest_conv h]
      cases closest f (s.map (·.y)) <;> rfl
  unfold contactAngle
  rw [hfl]
  cases hyf : floorOf floor s with
  | error e => rfl
  | ok yf =>
    simp only [Except.map, bind, Except.bind]
    have hI := C147_interface u h s box { o with ylims := (yf, none) } hx
    have hopt : ({ u.opts o with ylims := (yf.map u.height, none) } : Opts) = u.opts { o with ylims := (yf, none) } := rfl
    rw [hopt, hI]
    cases hi : getInterface s box { o with ylims := (yf, none) } with
    | error e => rfl
    | ok out =>
      have hrows := interface_rows s box _ out hi
      cases out with
      | nil => rfl
      | cons p rest =>
        obtain ⟨l, r⟩ := p
        obtain ⟨hl, hr, _⟩ := hrows (l, r) (by simp)
        simp only at hl hr
        simp only
        rw [row_conv s l hl, row_conv s r hr]
        have hfs : (floor.map u.height).isSome = floor.isSome := by cases floor <;> rfl
        have hne : yf.map u.height ≠ some (u.cell (row s l)).y ↔ yf ≠ some (row s l).y := by
          cases yf with
          | none => simp
          | some z =>
            simp only [Option.map_some, ne_eq, Option.some.injEq]
            exact not_congr ⟨fun e => height_inj h e, fun e => congrArg u.height e⟩
        rw [hfs]
        by_cases hc : floor.isSome = true ∧ yf ≠ some (row s l).y
        · rw [if_pos hc, if_pos ⟨hc.1, hne.mpr hc.2⟩]
        · rw [if_neg hc, if_neg fun q => hc ⟨q.1, hne.mp q.2⟩]
          have hloop := angleLoop_conv h s height (row s l).y rest
            (fun p hp => ⟨(hrows p (by simp [hp])).1, (hrows p (by simp [hp])).2.1⟩) none
          simp only [Option.map_none] at hloop
          rw [show (u.cell (row s l)).y = u.height (row s l).y from rfl, hloop]
          cases angleLoop s height (row s l).y none rest with
          | error e => rfl
          | ok t =>
            obtain ⟨⟨x1, x2⟩, dy⟩ := t
            simp only [Except.map, Except.ok.injEq, Option.some.injEq]
            unfold getAngles
            have e1 : u.scale * x1 + u.x0 - (u.cell (row s l)).x = u.scale * (x1 - (row s l).x) := by
              unfold Units.cell; ring
            have e2 : -(u.scale * x2 + u.x0 - (u.cell (row s r)).x) = u.scale * (-(x2 - (row s r).x)) := by
              unfold Units.cell; ring
            simp only
            rw [e1, e2, show u.len dy = u.scale * dy from rfl, angleDeg_scale _ _ _ h.scale, angleDeg_scale _ _ _ h.scale]

/-- From nanometres to picometres with the origin of the box moved, and from degrees Celsius to Fahrenheit. -/
def exUnits : Units := { scale := 1000, x0 := 7, y0 := -3, vscale := 9 / 5, v0 := 32, other := fun i v => ((i : ℚ) + 1) * v }

theorem exUnits_valid : exUnits.Valid :=
  ⟨by decide +kernel, by decide +kernel, fun i a b q => by
    have : (0 : ℚ) < (i : ℚ) + 1 := by positivity
    exact mul_lt_mul_of_pos_left q this⟩

/-- A drop three bins wide on top of one five bins wide. -/
def exDrop : System :=
  [⟨0, 0, 9, [1]⟩, ⟨1, 0, 8, [2]⟩, ⟨2, 0, 9, [3]⟩, ⟨3, 0, 9, [3]⟩, ⟨4, 0, 9, [3]⟩,
   ⟨0, 1, 0, [0]⟩, ⟨1, 1, 7, [1]⟩, ⟨2, 1, 9, [2]⟩, ⟨3, 1, 9, [2]⟩, ⟨4, 1, 1, [2]⟩]

example : getInterface exDrop (some (5, 2)) {} = .ok [(0, 4), (6, 8)] ∧
    getInterface (exUnits.map exDrop) (exUnits.box (some (5, 2))) {} = .ok [(0, 4), (6, 8)] := by
  decide +kernel

/-- Only the units of the radius forgotten: another interface. -/
example : getInterface (exUnits.map exDrop) none { radius := some 1 } = .ok [] := by decide +kernel

/-- The periodic search after moving the origin along x: the images of the bins are looked for in the wrong
place, so the condition of `C147_interface` is needed. -/
theorem C147_origin_counterexample :
    let u : Units := { scale := 1, x0 := 10, vscale := 1 }
    let o : Opts := { longest := true, radius := some 1, cutoff := some 5, bins := 2 }
    getInterface sortedDemo (some (5, 1)) o = .ok [(4, 4)] ∧
    getInterface (u.map sortedDemo) (u.box (some (5, 1))) (u.opts o) = .ok [] := by
  decide +kernel

end Strata.Interface
