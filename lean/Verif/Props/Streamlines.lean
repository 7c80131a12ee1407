import Verif.Props.View
/-!
# The data behind the figures: C73 (streamlines)

The rounding of `int((x1 - x0) / dx)` is a parameter `quot`.
-/
namespace Strata.View
open Strata Strata.Flow Strata.Average Strata.Resample Strata.Sample

/-- The limit is not the number 0, which the code takes for an absent limit. -/
def NotZero (lims : Option ℚ × Option ℚ) : Prop := lims.1 ≠ some 0 ∧ lims.2 ≠ some 0

theorem lowerLimit_le {m v : ℚ} (l : Option ℚ) (hl : l ≠ some 0) (hm : m ≤ v) : lowerLimit m l ≤ v ↔ ∀ a, l = some a → a ≤ v := by
  unfold lowerLimit
  cases l with
  | none => simp [hm]
  | some a =>
    have : a ≠ 0 := fun h => hl (by rw [h])
    simp [this, hm]

theorem le_upperLimit {m v : ℚ} (l : Option ℚ) (hl : l ≠ some 0) (hm : v ≤ m) : v ≤ upperLimit m l ↔ ∀ a, l = some a → v ≤ a := by
  unfold upperLimit
  cases l with
  | none => simp [hm]
  | some a =>
    have : a ≠ 0 := fun h => hl (by rw [h])
    simp [this, hm]

/-- The rows within the limits. -/
def rowsInside (r : Record) (xlim ylim : Option ℚ × Option ℚ) : List ℕ :=
  (List.range (Flow.size r)).filter fun t : ℕ => decide (Within xlim.1 xlim.2 (val r "X" t)) && decide (Within ylim.1 ylim.2 (val r "Y" t))

theorem mem_rowsInside {r : Record} {xlim ylim : Option ℚ × Option ℚ} {t : ℕ} :
    t ∈ rowsInside r xlim ylim ↔ t < Flow.size r ∧ Within xlim.1 xlim.2 (val r "X" t) ∧ Within ylim.1 ylim.2 (val r "Y" t) := by
  simp [rowsInside]

/-- The function, for data without masked bins and limits other than 0. -/
theorem streamlines_eq (quot : ℚ → ℚ → ℤ) (f : Flow) (hw : Wf f.data) (sp : ℚ × ℚ) (hsp : f.info.spacing = some sp) (colour cl : Label) (cutoff : ℚ)
    (xlim ylim : Option ℚ × Option ℚ) (hx : "X" ∈ names f.data) (hy : "Y" ∈ names f.data) (hu : "U" ∈ names f.data) (hv : "V" ∈ names f.data)
    (hm : "M" ∈ names f.data) (hcol : colour ∈ names f.data) (hcl : cl ∈ names f.data)
    (hshown : ∀ t, t < Flow.size f.data → cutoff ≤ val f.data cl t) (zx : NotZero xlim) (zy : NotZero ylim)
    (xa xb ya yb : ℚ) (hxa : npMin ((rowsInside f.data xlim ylim).map (val f.data "X")) = .ok xa)
    (hxb : npMax ((rowsInside f.data xlim ylim).map (val f.data "X")) = .ok xb)
    (hya : npMin ((rowsInside f.data xlim ylim).map (val f.data "Y")) = .ok ya)
    (hyb : npMax ((rowsInside f.data xlim ylim).map (val f.data "Y")) = .ok yb) :
    streamlines quot f ("X", "Y") colour (cl, some cutoff) xlim ylim =
      if quot (xb - xa) sp.1 + 2 < 0 ∨ quot (yb - ya) sp.2 + 2 < 0 ∨
          ((rowsInside f.data xlim ylim).length : ℤ) ≠ (quot (xb - xa) sp.1 + 2) * (quot (yb - ya) sp.2 + 2) then .error .valueError
      else .ok ⟨(List.range (quot (xb - xa) sp.1 + 2).toNat).map fun i : ℕ => xa + (i : ℚ) * sp.1,
        (List.range (quot (yb - ya) sp.2 + 2).toNat).map fun j : ℕ => ya + (j : ℚ) * sp.2,
        reshapeT (quot (xb - xa) sp.1 + 2).toNat (quot (yb - ya) sp.2 + 2).toNat ((rowsInside f.data xlim ylim).map (val f.data "U")),
        reshapeT (quot (xb - xa) sp.1 + 2).toNat (quot (yb - ya) sp.2 + 2).toNat ((rowsInside f.data xlim ylim).map (val f.data "V")),
        reshapeT (quot (xb - xa) sp.1 + 2).toNat (quot (yb - ya) sp.2 + 2).toNat ((rowsInside f.data xlim ylim).map (val f.data colour)),
        reshapeT (quot (xb - xa) sp.1 + 2).toNat (quot (yb - ya) sp.2 + 2).toNat ((rowsInside f.data xlim ylim).map (val f.data "M"))⟩ := by
  obtain ⟨dx, dy⟩ := sp
  obtain ⟨xs, x1, x2⟩ := Sample.field_ok hx
  obtain ⟨ys, y1, y2⟩ := Sample.field_ok hy
  obtain ⟨us, u1, u2⟩ := Sample.field_ok hu
  obtain ⟨vs, v1, v2⟩ := Sample.field_ok hv
  obtain ⟨ms, m1, m2⟩ := Sample.field_ok hm
  obtain ⟨ws, w1, w2⟩ := Sample.field_ok hcol
  obtain ⟨cs, c1, c2⟩ := Sample.field_ok hcl
  have hsh : ∀ l : List ℕ, (∀ t ∈ l, t < Flow.size f.data) → l.filter (fun t : ℕ => !decide (cs.getD t 0 < cutoff)) = l := by
    intro l hl
    rw [List.filter_eq_self]
    intro t ht
    have := hshown t (hl t ht)
    rw [val_of_col c1] at this
    simpa using this
  have hne : 0 < Flow.size f.data := by
    have : (rowsInside f.data xlim ylim) ≠ [] := by
      intro h0
      rw [h0] at hxa
      simp [npMin] at hxa
    obtain ⟨t, ht⟩ := List.exists_mem_of_ne_nil _ this
    have := (mem_rowsInside.mp ht).1
    omega
  have hrne : ∀ l : Label, (List.range (Flow.size f.data)).map (val f.data l) ≠ [] := by
    intro l h0
    have := congrArg List.length h0
    simp at this
    omega
  obtain ⟨gx0, e1⟩ := npMin_exists (hrne "X")
  obtain ⟨gx1, e2⟩ := npMax_exists (hrne "X")
  obtain ⟨gy0, e3⟩ := npMin_exists (hrne "Y")
  obtain ⟨gy1, e4⟩ := npMax_exists (hrne "Y")
  have b1 : ∀ t, t < Flow.size f.data → gx0 ≤ val f.data "X" t := fun t ht =>
    ((npMin_ok_iff _ _).mp e1).2 _ (List.mem_map.mpr ⟨t, List.mem_range.mpr ht, rfl⟩)
  have b2 : ∀ t, t < Flow.size f.data → val f.data "X" t ≤ gx1 := fun t ht =>
    ((npMax_ok_iff _ _).mp e2).2 _ (List.mem_map.mpr ⟨t, List.mem_range.mpr ht, rfl⟩)
  have b3 : ∀ t, t < Flow.size f.data → gy0 ≤ val f.data "Y" t := fun t ht =>
    ((npMin_ok_iff _ _).mp e3).2 _ (List.mem_map.mpr ⟨t, List.mem_range.mpr ht, rfl⟩)
  have b4 : ∀ t, t < Flow.size f.data → val f.data "Y" t ≤ gy1 := fun t ht =>
    ((npMax_ok_iff _ _).mp e4).2 _ (List.mem_map.mpr ⟨t, List.mem_range.mpr ht, rfl⟩)
  have hinds : ((List.range (Flow.size f.data)).filter fun t : ℕ =>
      decide (lowerLimit gx0 xlim.1 ≤ xs.getD t 0) && decide (xs.getD t 0 ≤ upperLimit gx1 xlim.2) &&
        decide (lowerLimit gy0 ylim.1 ≤ ys.getD t 0) && decide (ys.getD t 0 ≤ upperLimit gy1 ylim.2)) = rowsInside f.data xlim ylim := by
    unfold rowsInside
    refine List.filter_congr fun t ht => ?_
    rw [List.mem_range] at ht
    rw [← val_of_col x1, ← val_of_col y1, Bool.eq_iff_iff]
    simp only [Bool.and_eq_true, decide_eq_true_eq]
    rw [lowerLimit_le _ zx.1 (b1 t ht), le_upperLimit _ zx.2 (b2 t ht), lowerLimit_le _ zy.1 (b3 t ht), le_upperLimit _ zy.2 (b4 t ht)]
    unfold Within
    tauto
  unfold streamlines
  simp only
  rw [c2, Gmx.ok_bind]
  simp only [hsp]
  rw [x2, Gmx.ok_bind, y2, Gmx.ok_bind]
  rw [hsh (List.range (Flow.size f.data)) (fun t ht => List.mem_range.mp ht)]
  rw [pick_val x1, pick_val y1, e1, Gmx.ok_bind, e2, Gmx.ok_bind, e3, Gmx.ok_bind, e4, Gmx.ok_bind, Gmx.ok_bind, Gmx.ok_bind, hinds,
    hsh (rowsInside f.data xlim ylim) (fun t ht => (mem_rowsInside.mp ht).1), pick_val x1, pick_val y1, hxa, Gmx.ok_bind, hxb, Gmx.ok_bind,
    hya, Gmx.ok_bind, hyb, Gmx.ok_bind]
  split
  · rfl
  · rw [u2, Gmx.ok_bind, v2, Gmx.ok_bind, w2, Gmx.ok_bind, m2, Gmx.ok_bind, pick_val u1, pick_val v1, pick_val w1, pick_val m1]

/-- Bins of the region, column by column. -/
def regionRows (ny a b mx my : ℕ) : List ℕ := (List.range (mx * my)).map fun k : ℕ => (a + k / my) * ny + (b + k % my)

theorem regionRows_eq (r : Record) (sp : ℚ × ℚ) (x0 y0 : ℚ) (nx ny : ℕ) (h : XMajor r sp x0 y0 nx ny) (xlim ylim : Option ℚ × Option ℚ)
    (a b mx my : ℕ) (hr : Window sp x0 y0 nx ny xlim ylim a b mx my) : rowsInside r xlim ylim = regionRows ny a b mx my := by
  have hmy := hr.mypos
  have hny : 0 < ny := by have := hr.yle; omega
  have hsort1 : (rowsInside r xlim ylim).Pairwise (· < ·) := List.Pairwise.filter _ List.pairwise_lt_range
  have hsort2 : (regionRows ny a b mx my).Pairwise (· < ·) := by
    unfold regionRows
    rw [List.pairwise_map]
    refine List.Pairwise.imp_of_mem ?_ List.pairwise_lt_range
    intro k l hk hl hkl
    rw [List.mem_range] at hk hl
    have d1 := Nat.div_add_mod k my
    have d2 := Nat.div_add_mod l my
    have m1 := Nat.mod_lt k hmy
    have m2 := Nat.mod_lt l hmy
    have hle : k / my ≤ l / my := Nat.div_le_div_right hkl.le
    rcases Nat.lt_or_ge (k / my) (l / my) with hlt | hge
    · have h3 : (a + k / my + 1) * ny ≤ (a + l / my) * ny := Nat.mul_le_mul_right _ (by omega)
      have := hr.yle
      rw [Nat.add_mul, one_mul] at h3
      omega
    · have he : k / my = l / my := le_antisymm hle hge
      rw [he] at d1 ⊢
      omega
  have hmem : ∀ t, t ∈ rowsInside r xlim ylim ↔ t ∈ regionRows ny a b mx my := by
    intro t
    rw [mem_rowsInside, h.size]
    unfold regionRows
    rw [List.mem_map]
    constructor
    · rintro ⟨ht, wx, wy⟩
      have ht' : t < ny * nx := by rw [Nat.mul_comm]; exact ht
      obtain ⟨g1, g2, g3⟩ := grid_decomp ht'
      rw [g3, h.x _ _ g2 g1, hr.x _ g2] at wx
      rw [g3, h.y _ _ g2 g1, hr.y _ g1] at wy
      have j1 : t % ny - b < my := by omega
      have j2 : t / ny - a < mx := by omega
      refine ⟨(t / ny - a) * my + (t % ny - b), ?_, ?_⟩
      · rw [List.mem_range, Nat.mul_comm mx my]
        exact grid_lt j1 j2
      · rw [grid_mod j1, grid_div j1, show a + (t / ny - a) = t / ny by omega, show b + (t % ny - b) = t % ny by omega]
        exact g3.symm
    · rintro ⟨k, hk, rfl⟩
      rw [List.mem_range] at hk
      have hk' : k < my * mx := by rw [Nat.mul_comm]; exact hk
      obtain ⟨g1, g2, -⟩ := grid_decomp hk'
      have i1 : a + k / my < nx := by have := hr.xle; omega
      have i2 : b + k % my < ny := by have := hr.yle; omega
      refine ⟨by rw [Nat.mul_comm nx ny]; exact grid_lt i2 i1, ?_, ?_⟩
      · rw [h.x _ _ i1 i2, hr.x _ i1]; exact ⟨Nat.le_add_right _ _, Nat.add_lt_add_left g2 _⟩
      · rw [h.y _ _ i1 i2, hr.y _ i2]; exact ⟨Nat.le_add_right _ _, Nat.add_lt_add_left g1 _⟩
  have hnd1 : (rowsInside r xlim ylim).Nodup := hsort1.imp fun h => Nat.ne_of_lt h
  have hnd2 : (regionRows ny a b mx my).Nodup := hsort2.imp fun h => Nat.ne_of_lt h
  exact List.Perm.eq_of_pairwise (le := (· < ·)) (fun x y _ _ h1 h2 => absurd h1 (Nat.lt_asymm h2)) hsort1 hsort2 ((List.perm_ext_iff_of_nodup hnd1 hnd2).mpr hmem)

theorem region_extent (r : Record) (sp : ℚ × ℚ) (hsx : 0 < sp.1) (hsy : 0 < sp.2) (x0 y0 : ℚ) (nx ny : ℕ) (h : XMajor r sp x0 y0 nx ny) (xlim ylim : Option ℚ × Option ℚ)
    (a b mx my : ℕ) (hr : Window sp x0 y0 nx ny xlim ylim a b mx my) :
    npMin ((rowsInside r xlim ylim).map (val r "X")) = .ok (x0 + sp.1 * (a : ℚ)) ∧
    npMax ((rowsInside r xlim ylim).map (val r "X")) = .ok (x0 + sp.1 * ((a + (mx - 1) : ℕ) : ℚ)) ∧
    npMin ((rowsInside r xlim ylim).map (val r "Y")) = .ok (y0 + sp.2 * (b : ℚ)) ∧
    npMax ((rowsInside r xlim ylim).map (val r "Y")) = .ok (y0 + sp.2 * ((b + (my - 1) : ℕ) : ℚ)) := by
  have hmx := hr.mxpos
  have hmy := hr.mypos
  have hxle := hr.xle
  have hyle := hr.yle
  have hmemX : ∀ v, v ∈ (rowsInside r xlim ylim).map (val r "X") ↔ ∃ i, i < mx ∧ v = x0 + sp.1 * ((a + i : ℕ) : ℚ) := by
    intro v
    rw [regionRows_eq r sp x0 y0 nx ny h xlim ylim a b mx my hr]
    unfold regionRows
    rw [List.map_map, List.mem_map]
    constructor
    · rintro ⟨k, hk, rfl⟩
      rw [List.mem_range] at hk
      have hk' : k < my * mx := by rw [Nat.mul_comm]; exact hk
      obtain ⟨g1, g2, -⟩ := grid_decomp hk'
      exact ⟨k / my, g2, h.x _ _ (by omega) (by omega)⟩
    · rintro ⟨i, hi, rfl⟩
      refine ⟨i * my + 0, ?_, ?_⟩
      · rw [List.mem_range, Nat.mul_comm mx my]
        exact grid_lt hmy hi
      · show val r "X" ((a + (i * my + 0) / my) * ny + (b + (i * my + 0) % my)) = _
        rw [grid_mod hmy, grid_div hmy, h.x _ _ (by omega) (by omega)]
  have hmemY : ∀ v, v ∈ (rowsInside r xlim ylim).map (val r "Y") ↔ ∃ j, j < my ∧ v = y0 + sp.2 * ((b + j : ℕ) : ℚ) := by
    intro v
    rw [regionRows_eq r sp x0 y0 nx ny h xlim ylim a b mx my hr]
    unfold regionRows
    rw [List.map_map, List.mem_map]
    constructor
    · rintro ⟨k, hk, rfl⟩
      rw [List.mem_range] at hk
      have hk' : k < my * mx := by rw [Nat.mul_comm]; exact hk
      obtain ⟨g1, g2, -⟩ := grid_decomp hk'
      exact ⟨k % my, g1, h.y _ _ (by omega) (by omega)⟩
    · rintro ⟨j, hj, rfl⟩
      refine ⟨0 * my + j, ?_, ?_⟩
      · rw [List.mem_range, Nat.mul_comm mx my]
        exact grid_lt hj hmx
      · show val r "Y" ((a + (0 * my + j) / my) * ny + (b + (0 * my + j) % my)) = _
        rw [grid_mod hj, grid_div hj, h.y _ _ (by omega) (by omega)]
  refine ⟨?_, ?_, ?_, ?_⟩
  · rw [npMin_ok_iff]
    refine ⟨(hmemX _).mpr ⟨0, hmx, rfl⟩, fun v hv => ?_⟩
    obtain ⟨i, hi, rfl⟩ := (hmemX v).mp hv
    have : (a : ℚ) ≤ ((a + i : ℕ) : ℚ) := by exact_mod_cast Nat.le_add_right a i
    nlinarith
  · rw [npMax_ok_iff]
    refine ⟨(hmemX _).mpr ⟨mx - 1, by omega, rfl⟩, fun v hv => ?_⟩
    obtain ⟨i, hi, rfl⟩ := (hmemX v).mp hv
    have : ((a + i : ℕ) : ℚ) ≤ ((a + (mx - 1) : ℕ) : ℚ) := by exact_mod_cast (by omega : a + i ≤ a + (mx - 1))
    nlinarith
  · rw [npMin_ok_iff]
    refine ⟨(hmemY _).mpr ⟨0, hmy, rfl⟩, fun v hv => ?_⟩
    obtain ⟨i, hi, rfl⟩ := (hmemY v).mp hv
    have : (b : ℚ) ≤ ((b + i : ℕ) : ℚ) := by exact_mod_cast Nat.le_add_right b i
    nlinarith
  · rw [npMax_ok_iff]
    refine ⟨(hmemY _).mpr ⟨my - 1, by omega, rfl⟩, fun v hv => ?_⟩
    obtain ⟨i, hi, rfl⟩ := (hmemY v).mp hv
    have : ((b + i : ℕ) : ℚ) ≤ ((b + (my - 1) : ℕ) : ℚ) := by exact_mod_cast (by omega : b + i ≤ b + (my - 1))
    nlinarith

theorem reshapeT_region (ny a b mx my : ℕ) (F : ℕ → ℚ) :
    reshapeT mx my ((regionRows ny a b mx my).map F) =
      (List.range my).map fun j : ℕ => (List.range mx).map fun i : ℕ => F ((a + i) * ny + (b + j)) := by
  unfold reshapeT
  refine List.map_congr_left fun j hj => List.map_congr_left fun i hi => ?_
  rw [List.mem_range] at hi hj
  unfold regionRows
  rw [List.map_map, getD_map_range _ _ _ (by rw [Nat.mul_comm mx my]; exact grid_lt hj hi)]
  show F ((a + (i * my + j) / my) * ny + (b + (i * my + j) % my)) = _
  rw [grid_mod hj, grid_div hj]

/-- **C73, region.** Take a map whose bins are in the order of a file (column by column), all above the cutoff, and limits other
than 0 which contain the bins of columns `a … a + mx - 1` and rows `b … b + my - 1`.  If the floating point quotients of the extents
by the spacings are truncated to one less than the number of bin distances, the function returns the grid of exactly these bins:
their positions, and as entry `(j, i)` of every field the value of the bin at column `a + i` and row `b + j`.
(Missing: maps, limits and spacings for which the hypotheses fail; see the counterexamples below.) -/
theorem C73_region_partial (quot : ℚ → ℚ → ℤ) (f : Flow) (sp : ℚ × ℚ) (hsp : f.info.spacing = some sp) (hsx : 0 < sp.1) (hsy : 0 < sp.2) (x0 y0 : ℚ) (nx ny : ℕ)
    (h : XMajor f.data sp x0 y0 nx ny) (colour cl : Label) (cutoff : ℚ) (xlim ylim : Option ℚ × Option ℚ)
    (hu : "U" ∈ names f.data) (hv : "V" ∈ names f.data) (hm : "M" ∈ names f.data) (hcol : colour ∈ names f.data) (hcl : cl ∈ names f.data)
    (hshown : ∀ t, t < Flow.size f.data → cutoff ≤ val f.data cl t) (zx : NotZero xlim) (zy : NotZero ylim)
    (a b mx my : ℕ) (hr : Window sp x0 y0 nx ny xlim ylim a b mx my)
    (hqx : quot (sp.1 * ((mx - 1 : ℕ) : ℚ)) sp.1 = (mx : ℤ) - 2) (hqy : quot (sp.2 * ((my - 1 : ℕ) : ℚ)) sp.2 = (my : ℤ) - 2) :
    streamlines quot f ("X", "Y") colour (cl, some cutoff) xlim ylim = .ok
      ⟨(List.range mx).map fun i : ℕ => x0 + sp.1 * ((a + i : ℕ) : ℚ),
       (List.range my).map fun j : ℕ => y0 + sp.2 * ((b + j : ℕ) : ℚ),
       (List.range my).map fun j : ℕ => (List.range mx).map fun i : ℕ => val f.data "U" ((a + i) * ny + (b + j)),
       (List.range my).map fun j : ℕ => (List.range mx).map fun i : ℕ => val f.data "V" ((a + i) * ny + (b + j)),
       (List.range my).map fun j : ℕ => (List.range mx).map fun i : ℕ => val f.data colour ((a + i) * ny + (b + j)),
       (List.range my).map fun j : ℕ => (List.range mx).map fun i : ℕ => val f.data "M" ((a + i) * ny + (b + j))⟩ := by
  obtain ⟨e1, e2, e3, e4⟩ := region_extent f.data sp hsx hsy x0 y0 nx ny h xlim ylim a b mx my hr
  rw [streamlines_eq quot f h.wf sp hsp colour cl cutoff xlim ylim h.hasX h.hasY hu hv hm hcol hcl hshown zx zy _ _ _ _ e1 e2 e3 e4]
  rw [show x0 + sp.1 * ((a + (mx - 1) : ℕ) : ℚ) - (x0 + sp.1 * (a : ℚ)) = sp.1 * ((mx - 1 : ℕ) : ℚ) by push_cast; ring,
    show y0 + sp.2 * ((b + (my - 1) : ℕ) : ℚ) - (y0 + sp.2 * (b : ℚ)) = sp.2 * ((my - 1 : ℕ) : ℚ) by push_cast; ring, hqx, hqy]
  rw [show (mx : ℤ) - 2 + 2 = mx by ring, show (my : ℤ) - 2 + 2 = my by ring]
  have hlen : (rowsInside f.data xlim ylim).length = mx * my := by
    rw [regionRows_eq f.data sp x0 y0 nx ny h xlim ylim a b mx my hr]; simp [regionRows]
  rw [if_neg (by rw [hlen]; push_cast; omega), regionRows_eq f.data sp x0 y0 nx ny h xlim ylim a b mx my hr]
  simp only [Int.toNat_natCast, reshapeT_region]
  congr 2
  · refine List.map_congr_left fun i _ => ?_
    push_cast; ring
  · refine List.map_congr_left fun i _ => ?_
    push_cast; ring

/-- **C73, counterexample: exact quotients.** Wherever the division is exact, as for every spacing that is a power of two, the
number of columns and rows comes out too large by one and the function fails, whatever the map, the limits and the cutoff. -/
theorem C73_exact_quotient_counterexample (quot : ℚ → ℚ → ℤ) (f : Flow) (sp : ℚ × ℚ) (hsp : f.info.spacing = some sp) (hsx : 0 < sp.1) (hsy : 0 < sp.2) (x0 y0 : ℚ) (nx ny : ℕ)
    (h : XMajor f.data sp x0 y0 nx ny) (colour cl : Label) (cutoff : ℚ) (xlim ylim : Option ℚ × Option ℚ)
    (hu : "U" ∈ names f.data) (hv : "V" ∈ names f.data) (hm : "M" ∈ names f.data) (hcol : colour ∈ names f.data) (hcl : cl ∈ names f.data)
    (hshown : ∀ t, t < Flow.size f.data → cutoff ≤ val f.data cl t) (zx : NotZero xlim) (zy : NotZero ylim)
    (a b mx my : ℕ) (hr : Window sp x0 y0 nx ny xlim ylim a b mx my)
    (hqx : ∀ k : ℕ, quot (sp.1 * (k : ℚ)) sp.1 = k) (hqy : ∀ k : ℕ, quot (sp.2 * (k : ℚ)) sp.2 = k) :
    streamlines quot f ("X", "Y") colour (cl, some cutoff) xlim ylim = .error .valueError := by
  obtain ⟨e1, e2, e3, e4⟩ := region_extent f.data sp hsx hsy x0 y0 nx ny h xlim ylim a b mx my hr
  rw [streamlines_eq quot f h.wf sp hsp colour cl cutoff xlim ylim h.hasX h.hasY hu hv hm hcol hcl hshown zx zy _ _ _ _ e1 e2 e3 e4]
  rw [show x0 + sp.1 * ((a + (mx - 1) : ℕ) : ℚ) - (x0 + sp.1 * (a : ℚ)) = sp.1 * ((mx - 1 : ℕ) : ℚ) by push_cast; ring,
    show y0 + sp.2 * ((b + (my - 1) : ℕ) : ℚ) - (y0 + sp.2 * (b : ℚ)) = sp.2 * ((my - 1 : ℕ) : ℚ) by push_cast; ring, hqx, hqy]
  have hlen : (rowsInside f.data xlim ylim).length = mx * my := by
    rw [regionRows_eq f.data sp x0 y0 nx ny h xlim ylim a b mx my hr]; simp [regionRows]
  have hmx := hr.mxpos
  have hmy := hr.mypos
  rw [if_pos]
  right; right
  rw [hlen, show ((mx - 1 : ℕ) : ℤ) + 2 = ((mx + 1 : ℕ) : ℤ) by omega, show ((my - 1 : ℕ) : ℤ) + 2 = ((my + 1 : ℕ) : ℤ) by omega]
  norm_cast
  have : (mx + 1) * (my + 1) = mx * my + mx + my + 1 := by ring
  omega

/-- **C73, counterexample: limits of 0.** A limit of 0 has no effect, for every map. -/
theorem C73_zero_limit_counterexample (quot : ℚ → ℚ → ℤ) (f : Flow) (coords : Label × Label) (colour : Label) (clim : Label × Option ℚ)
    (lo hi : Option ℚ) (lims : Option ℚ × Option ℚ) :
    streamlines quot f coords colour clim (some 0, hi) lims = streamlines quot f coords colour clim (none, hi) lims ∧
    streamlines quot f coords colour clim (lo, some 0) lims = streamlines quot f coords colour clim (lo, none) lims ∧
    streamlines quot f coords colour clim lims (some 0, hi) = streamlines quot f coords colour clim lims (none, hi) ∧
    streamlines quot f coords colour clim lims (lo, some 0) = streamlines quot f coords colour clim lims (lo, none) := by
  have h1 : ∀ m, lowerLimit m (some 0) = lowerLimit m none := fun m => by simp [lowerLimit]
  have h2 : ∀ m, upperLimit m (some 0) = upperLimit m none := fun m => by simp [upperLimit]
  refine ⟨?_, ?_, ?_, ?_⟩ <;> unfold streamlines <;> simp only [h1, h2]

/-- **C73, no cutoff.** Without a cutoff value (the default of the command) no streamlines are drawn from any map with the field:
`TypeError`. -/
theorem C73_no_cutoff_counterexample (quot : ℚ → ℚ → ℤ) (f : Flow) (coords : Label × Label) (colour cl : Label) (xlim ylim : Option ℚ × Option ℚ)
    (hcl : cl ∈ names f.data) : streamlines quot f coords colour (cl, none) xlim ylim = .error .typeError := by
  obtain ⟨cs, -, c2⟩ := Sample.field_ok hcl
  unfold streamlines
  simp only [c2, Gmx.ok_bind]

/-- **C73, counterexample: sorted data.** After colouring by dissipation or evaporation the bins are sorted row by row.  Then, even if
the shape comes out right, the value drawn at `(i, j)` is that of the bin in row `i ny + j`, which is the bin at column
`(i ny + j) mod nx` and row `(i ny + j) / nx`. -/
theorem C73_sorted_counterexample (quot : ℚ → ℚ → ℤ) (f : Flow) (sp : ℚ × ℚ) (hsp : f.info.spacing = some sp) (hsx : 0 < sp.1) (hsy : 0 < sp.2) (x0 y0 : ℚ) (nx ny : ℕ)
    (h : Lattice f.data sp x0 y0 nx ny) (colour cl : Label) (cutoff : ℚ)
    (hu : "U" ∈ names f.data) (hv : "V" ∈ names f.data) (hm : "M" ∈ names f.data) (hcol : colour ∈ names f.data) (hcl : cl ∈ names f.data)
    (hshown : ∀ t, t < Flow.size f.data → cutoff ≤ val f.data cl t)
    (hqx : quot (sp.1 * ((nx - 1 : ℕ) : ℚ)) sp.1 = (nx : ℤ) - 2) (hqy : quot (sp.2 * ((ny - 1 : ℕ) : ℚ)) sp.2 = (ny : ℤ) - 2) :
    ∃ s, streamlines quot f ("X", "Y") colour (cl, some cutoff) (none, none) (none, none) = .ok s ∧ s.x = (List.range nx).map (fun i : ℕ => x0 + sp.1 * (i : ℚ)) ∧
      s.y = (List.range ny).map (fun j : ℕ => y0 + sp.2 * (j : ℚ)) ∧ ∀ i j, i < nx → j < ny →
        (s.u.getD j []).getD i 0 = val f.data "U" (i * ny + j) ∧
        val f.data "X" (i * ny + j) = x0 + sp.1 * (((i * ny + j) % nx : ℕ) : ℚ) ∧ val f.data "Y" (i * ny + j) = y0 + sp.2 * (((i * ny + j) / nx : ℕ) : ℚ) := by
  have hall : rowsInside f.data (none, none) (none, none) = List.range (nx * ny) := by
    unfold rowsInside
    rw [h.size, List.filter_eq_self]
    intro t _
    simp [Within]
  have hnx := h.nxpos
  have hny := h.nypos
  have memX : ∀ v, v ∈ (List.range (nx * ny)).map (val f.data "X") ↔ ∃ i, i < nx ∧ v = x0 + sp.1 * (i : ℚ) := by
    intro v
    rw [List.mem_map]
    constructor
    · rintro ⟨t, ht, rfl⟩
      rw [List.mem_range] at ht
      exact ⟨t % nx, Nat.mod_lt _ hnx, h.x t ht⟩
    · rintro ⟨i, hi, rfl⟩
      refine ⟨0 * nx + i, List.mem_range.mpr (grid_lt hi hny), ?_⟩
      rw [h.x _ (grid_lt hi hny), grid_mod hi]
  have memY : ∀ v, v ∈ (List.range (nx * ny)).map (val f.data "Y") ↔ ∃ j, j < ny ∧ v = y0 + sp.2 * (j : ℚ) := by
    intro v
    rw [List.mem_map]
    constructor
    · rintro ⟨t, ht, rfl⟩
      rw [List.mem_range] at ht
      exact ⟨t / nx, (grid_decomp ht).2.1, h.y t ht⟩
    · rintro ⟨j, hj, rfl⟩
      refine ⟨j * nx + 0, List.mem_range.mpr (grid_lt hnx hj), ?_⟩
      rw [h.y _ (grid_lt hnx hj), grid_div hnx]
  have e1 : npMin ((rowsInside f.data (none, none) (none, none)).map (val f.data "X")) = .ok x0 := by
    rw [hall, npMin_ok_iff]
    refine ⟨(memX _).mpr ⟨0, hnx, by simp⟩, fun v hv => ?_⟩
    obtain ⟨i, -, rfl⟩ := (memX v).mp hv
    have : (0 : ℚ) ≤ i := Nat.cast_nonneg i
    nlinarith
  have e2 : npMax ((rowsInside f.data (none, none) (none, none)).map (val f.data "X")) = .ok (x0 + sp.1 * ((nx - 1 : ℕ) : ℚ)) := by
    rw [hall, npMax_ok_iff]
    refine ⟨(memX _).mpr ⟨nx - 1, by omega, rfl⟩, fun v hv => ?_⟩
    obtain ⟨i, hi, rfl⟩ := (memX v).mp hv
    have : (i : ℚ) ≤ ((nx - 1 : ℕ) : ℚ) := by exact_mod_cast (by omega : i ≤ nx - 1)
    nlinarith
  have e3 : npMin ((rowsInside f.data (none, none) (none, none)).map (val f.data "Y")) = .ok y0 := by
    rw [hall, npMin_ok_iff]
    refine ⟨(memY _).mpr ⟨0, hny, by simp⟩, fun v hv => ?_⟩
    obtain ⟨i, -, rfl⟩ := (memY v).mp hv
    have : (0 : ℚ) ≤ i := Nat.cast_nonneg i
    nlinarith
  have e4 : npMax ((rowsInside f.data (none, none) (none, none)).map (val f.data "Y")) = .ok (y0 + sp.2 * ((ny - 1 : ℕ) : ℚ)) := by
    rw [hall, npMax_ok_iff]
    refine ⟨(memY _).mpr ⟨ny - 1, by omega, rfl⟩, fun v hv => ?_⟩
    obtain ⟨i, hi, rfl⟩ := (memY v).mp hv
    have : (i : ℚ) ≤ ((ny - 1 : ℕ) : ℚ) := by exact_mod_cast (by omega : i ≤ ny - 1)
    nlinarith
  have e := streamlines_eq quot f h.wf sp hsp colour cl cutoff (none, none) (none, none) h.hasX h.hasY hu hv hm hcol hcl hshown (by simp [NotZero]) (by simp [NotZero]) _ _ _ _ e1 e2 e3 e4
  rw [show x0 + sp.1 * ((nx - 1 : ℕ) : ℚ) - x0 = sp.1 * ((nx - 1 : ℕ) : ℚ) by ring,
    show y0 + sp.2 * ((ny - 1 : ℕ) : ℚ) - y0 = sp.2 * ((ny - 1 : ℕ) : ℚ) by ring, hqx, hqy, show (nx : ℤ) - 2 + 2 = nx by ring, show (ny : ℤ) - 2 + 2 = ny by ring,
    hall, if_neg (by rw [List.length_range]; push_cast; omega)] at e
  simp only [Int.toNat_natCast] at e
  refine ⟨_, e, ?_, ?_, ?_⟩
  · exact List.map_congr_left fun i _ => by ring
  · exact List.map_congr_left fun i _ => by ring
  · intro i j hi hj
    have ht : i * ny + j < nx * ny := by rw [Nat.mul_comm nx ny]; exact grid_lt hj hi
    refine ⟨?_, h.x _ ht, h.y _ ht⟩
    have hr1 : ((List.range ny).map fun j : ℕ => (List.range nx).map fun i : ℕ => ((List.range (nx * ny)).map (val f.data "U")).getD (i * ny + j) 0).getD j [] =
        (List.range nx).map fun i : ℕ => ((List.range (nx * ny)).map (val f.data "U")).getD (i * ny + j) 0 := by
      rw [List.getD_eq_getElem?_getD, List.getElem?_map, List.getElem?_range hj]; rfl
    show ((reshapeT nx ny ((List.range (nx * ny)).map (val f.data "U"))).getD j []).getD i 0 = _
    unfold reshapeT
    rw [hr1, getD_map_range _ _ _ hi, getD_map_range _ _ _ ht]

/-! ### Examples -/

/-- A map of 2 × 2 bins of width 1/10 in file order. -/
def exS : Flow := ⟨[("X", [1, 1, 2, 2]), ("Y", [0, 1, 0, 1]), ("U", [1, 2, 3, 4]), ("V", [5, 6, 7, 8]), ("M", [1, 1, 1, 1])], { spacing := some (1, 1) }⟩

/-- A division whose results are rounded slightly down, as for 0.1, 0.2, 0.3. -/
def quotDown (x d : ℚ) : ℤ := ⌈x / d⌉ - 1

example : XMajor exS.data (1, 1) 1 0 2 2 := by
  refine ⟨⟨by decide, by decide⟩, by decide, by decide, rfl, ?_, ?_⟩
  · have : ∀ i : ℕ, i < 2 → ∀ j : ℕ, j < 2 → val exS.data "X" (i * 2 + j) = 1 + (1 : ℚ) * (i : ℚ) := by decide +kernel
    exact fun i j hi hj => this i hi j hj
  · have : ∀ i : ℕ, i < 2 → ∀ j : ℕ, j < 2 → val exS.data "Y" (i * 2 + j) = 0 + (1 : ℚ) * (j : ℚ) := by decide +kernel
    exact fun i j hi hj => this i hi j hj

example : streamlines quotDown exS ("X", "Y") "V" ("M", some 1) (some (1 / 2), none) (none, none) =
    .ok ⟨[1, 2], [0, 1], [[1, 3], [2, 4]], [[5, 7], [6, 8]], [[5, 7], [6, 8]], [[1, 1], [1, 1]]⟩ ∧
    streamlines (fun x d => ⌊x / d⌋) exS ("X", "Y") "V" ("M", some 1) (some (1 / 2), none) (none, none) = .error .valueError := by
  refine ⟨?_, ?_⟩ <;> decide +kernel

/-- The region of the example: all columns. -/
example : Window (1, 1) 1 0 2 2 (some (1 / 2), none) (none, none) 0 0 2 2 := by
  refine ⟨by decide, by decide, by decide, by decide, ?_, ?_⟩
  · have : ∀ i : ℕ, i < 2 → (Within (some (1 / 2)) none (1 + (1 : ℚ) * (i : ℚ)) ↔ 0 ≤ i ∧ i < 0 + 2) := by decide +kernel
    exact this
  · have : ∀ i : ℕ, i < 2 → (Within none none (0 + (1 : ℚ) * (i : ℚ)) ↔ 0 ≤ i ∧ i < 0 + 2) := by decide +kernel
    exact this

end Strata.View
