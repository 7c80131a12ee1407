import Verif.Spec.View
import Verif.Proofs.Sample
import Verif.Proofs.SimpleText
import Mathlib.Analysis.SpecialFunctions.Complex.Arg
/-!
# The data behind the figures: C71, C72, C93
-/
namespace Strata.View
open Strata Strata.Flow Strata.Average Strata.Resample Strata.Sample

/-! ## C71 -/

theorem gradient1_slope {n : ℕ} (hn : 2 ≤ n) (x0 d h : ℚ) (hd : d ≠ 0) (hh : h ≠ 0) (f : ℕ → ℚ) {i : ℕ} (hi : i < n) :
    gradient1 n h f i = slope n (fun k => x0 + d * (k : ℚ)) f i * (d / h) := by
  unfold gradient1 slope
  split_ifs with h0 h1
  · subst h0
    rw [show min (0 + 1) (n - 1) = 1 by omega]
    push_cast
    rw [show x0 + d * 1 - (x0 + d * 0) = d by ring]
    field_simp
  · rw [show min (i + 1) (n - 1) = i by omega, show n - 1 = i by omega, show n - 2 = i - 1 by omega]
    obtain ⟨m, rfl⟩ : ∃ m, i = m + 1 := ⟨i - 1, by omega⟩
    simp only [Nat.add_sub_cancel]
    push_cast
    rw [show x0 + d * ((m : ℚ) + 1) - (x0 + d * m) = d by ring]
    field_simp
  · rw [show min (i + 1) (n - 1) = i + 1 by omega]
    obtain ⟨m, rfl⟩ : ∃ m, i = m + 1 := ⟨i - 1, by omega⟩
    simp only [Nat.add_sub_cancel]
    push_cast
    rw [show x0 + d * ((m : ℚ) + 1 + 1) - (x0 + d * m) = 2 * d by ring]
    field_simp

theorem gradient1_congr {n : ℕ} (hn : 2 ≤ n) {h : ℚ} {f g : ℕ → ℚ} (e : ∀ i, i < n → f i = g i) {i : ℕ} (hi : i < n) :
    gradient1 n h f i = gradient1 n h g i := by
  unfold gradient1
  split_ifs with h0 h1
  · rw [e 0 (by omega), e 1 (by omega)]
  · rw [e _ (by omega), e _ (by omega)]
  · rw [e _ (by omega), e _ (by omega)]

theorem massOnGrid_eq (f : Flow) (sp : ℚ × ℚ) (x0 y0 : ℚ) (nx ny : ℕ) (h : FullMap f sp x0 y0 nx ny) (hx : 0 < sp.1) (hy : 0 < sp.2)
    (hnx : 2 ≤ nx) (hny : 2 ≤ ny) (hm : "M" ∈ names f.data) :
    ∃ s m, massOnGrid f = .ok (⟨s, f.info⟩, nx, ny, sp, m) ∧ Lattice s sp x0 y0 nx ny ∧ names s = names f.data ∧
      (∀ l i j, i < nx → j < ny → val s l (j * nx + i) = atNode f.data l sp x0 y0 ("X", "Y") i j) ∧ col? s "M" = some m := by
  obtain ⟨hg, hsh, hsp⟩ := h
  obtain ⟨s, hs, hlat, hn, hval⟩ := sort_fullGrid hg hx hy
  obtain ⟨m, hm1, hm2⟩ := Sample.field_ok (r := s) (l := "M") (by rw [hn]; exact hm)
  refine ⟨s, m, ?_, hlat, hn, hval, hm1⟩
  unfold massOnGrid
  simp only [Flow.sort, hs, Gmx.ok_bind, hsh]
  rw [if_neg (by rw [hlat.size]; push_cast; omega), hm2, Gmx.ok_bind, if_neg (by omega)]
  simp only [hsp, Int.toNat_natCast]

/-- The two gradients at a node. -/
theorem massGradients_node (f : Flow) (s : Record) (m : List ℚ) (sp : ℚ × ℚ) (x0 y0 : ℚ) (nx ny : ℕ) (hx : 0 < sp.1) (hy : 0 < sp.2)
    (hnx : 2 ≤ nx) (hny : 2 ≤ ny) (hm : col? s "M" = some m)
    (hval : ∀ l i j, i < nx → j < ny → val s l (j * nx + i) = atNode f.data l sp x0 y0 ("X", "Y") i j) (i j : ℕ) (hi : i < nx) (hj : j < ny) :
    massGradients nx ny sp (fun k => m.getD k 0) (j * nx + i) =
      (slope ny (fun k => y0 + sp.2 * (k : ℚ)) (fun b => atNode f.data "M" sp x0 y0 ("X", "Y") i b) j * (sp.2 / sp.1),
       slope nx (fun k => x0 + sp.1 * (k : ℚ)) (fun a => atNode f.data "M" sp x0 y0 ("X", "Y") a j) i * (sp.1 / sp.2)) := by
  have hM : ∀ a b, a < nx → b < ny → m.getD (b * nx + a) 0 = atNode f.data "M" sp x0 y0 ("X", "Y") a b := by
    intro a b ha hb; rw [← hval "M" a b ha hb, val_of_col hm]
  unfold massGradients
  rw [grid_mod hi, grid_div hi]
  congr 1
  · rw [gradient1_congr hny (fun b hb => hM i b hi hb) hj, gradient1_slope hny y0 sp.2 sp.1 hy.ne' hx.ne' _ hj]
  · rw [gradient1_congr hnx (fun a ha => hM a j ha hj) hi, gradient1_slope hnx x0 sp.1 sp.2 hx.ne' hy.ne' _ hi]

theorem newName_ok {r : Record} {l : Label} (h : l ∉ names r) : newName r l = .ok () := by
  unfold newName; rw [if_neg h]

/-- What the two functions calculate, for every map on a full grid (bins in any order) of at least 2 × 2 bins: the slopes of
the density along x and y, but multiplied by the ratio of the spacings, since each axis uses the spacing of the other one. -/
theorem C71_as_coded (f : Flow) (sp : ℚ × ℚ) (x0 y0 : ℚ) (nx ny : ℕ) (h : FullMap f sp x0 y0 nx ny) (hx : 0 < sp.1) (hy : 0 < sp.2)
    (hnx : 2 ≤ nx) (hny : 2 ≤ ny) (hm : "M" ∈ names f.data) :
    (("grad_rho_x" ∉ names f.data ∧ "grad_rho_y" ∉ names f.data) → ∃ g gx gy, densityGradient f = .ok (g, gx, gy) ∧ g.info = f.info ∧
      gx.length = nx * ny ∧ gy.length = nx * ny ∧ ∀ i j, i < nx → j < ny →
        (val g.data "X" (j * nx + i) = x0 + sp.1 * (i : ℚ) ∧ val g.data "Y" (j * nx + i) = y0 + sp.2 * (j : ℚ)) ∧
        gx.getD (j * nx + i) none = some (slope nx (fun k => x0 + sp.1 * (k : ℚ)) (fun a => atNode f.data "M" sp x0 y0 ("X", "Y") a j) i * (sp.1 / sp.2)) ∧
        gy.getD (j * nx + i) none = some (slope ny (fun k => y0 + sp.2 * (k : ℚ)) (fun b => atNode f.data "M" sp x0 y0 ("X", "Y") i b) j * (sp.2 / sp.1))) ∧
    (("evaporation" ∉ names f.data ∧ "U" ∈ names f.data ∧ "V" ∈ names f.data) → ∃ g ev, evaporation f = .ok (g, ev) ∧ g.info = f.info ∧
      ev.length = nx * ny ∧ ∀ i j, i < nx → j < ny →
        (val g.data "X" (j * nx + i) = x0 + sp.1 * (i : ℚ) ∧ val g.data "Y" (j * nx + i) = y0 + sp.2 * (j : ℚ)) ∧
        ev.getD (j * nx + i) none = some (
          atNode f.data "U" sp x0 y0 ("X", "Y") i j *
            (slope nx (fun k => x0 + sp.1 * (k : ℚ)) (fun a => atNode f.data "M" sp x0 y0 ("X", "Y") a j) i * (sp.1 / sp.2)) +
          atNode f.data "V" sp x0 y0 ("X", "Y") i j *
            (slope ny (fun k => y0 + sp.2 * (k : ℚ)) (fun b => atNode f.data "M" sp x0 y0 ("X", "Y") i b) j * (sp.2 / sp.1)))) := by
  obtain ⟨s, m, e, hlat, hn, hval, hmc⟩ := massOnGrid_eq f sp x0 y0 nx ny h hx hy hnx hny hm
  have hpos : ∀ i j, i < nx → j < ny → val s "X" (j * nx + i) = x0 + sp.1 * (i : ℚ) ∧ val s "Y" (j * nx + i) = y0 + sp.2 * (j : ℚ) := by
    intro i j hi hj
    have h1 := hlat.x _ (grid_lt hi hj)
    have h2 := hlat.y _ (grid_lt hi hj)
    rw [grid_mod hi] at h1
    rw [grid_div hi] at h2
    exact ⟨h1, h2⟩
  have hget : ∀ (F : ℕ → Option ℚ) (t : ℕ), t < nx * ny → ((List.range (nx * ny)).map F).getD t none = F t := by
    intro F t ht
    rw [List.getD_eq_getElem?_getD, List.getElem?_map, List.getElem?_range ht]; rfl
  constructor
  · rintro ⟨n1, n2⟩
    refine ⟨⟨s, f.info⟩, _, _, by
      unfold densityGradient
      rw [e, Gmx.ok_bind]
      simp only
      rw [newName_ok (by rw [hn]; exact n1), Gmx.ok_bind, newName_ok (by rw [hn]; exact n2), Gmx.ok_bind], rfl, ?_, ?_, ?_⟩
    · simp
    · simp
    · intro i j hi hj
      refine ⟨hpos i j hi hj, ?_, ?_⟩
      · rw [hget _ _ (grid_lt hi hj), if_neg hy.ne', massGradients_node f s m sp x0 y0 nx ny hx hy hnx hny hmc hval i j hi hj]
      · rw [hget _ _ (grid_lt hi hj), if_neg hx.ne', massGradients_node f s m sp x0 y0 nx ny hx hy hnx hny hmc hval i j hi hj]
  · rintro ⟨n1, hu, hv⟩
    obtain ⟨u, hu1, hu2⟩ := Sample.field_ok (r := s) (l := "U") (by rw [hn]; exact hu)
    obtain ⟨v, hv1, hv2⟩ := Sample.field_ok (r := s) (l := "V") (by rw [hn]; exact hv)
    refine ⟨⟨s, f.info⟩, _, by
      unfold evaporation
      rw [e, Gmx.ok_bind]
      simp only
      rw [hu2, Gmx.ok_bind, hv2, Gmx.ok_bind, newName_ok (by rw [hn]; exact n1), Gmx.ok_bind], rfl, ?_, ?_⟩
    · simp
    · intro i j hi hj
      refine ⟨hpos i j hi hj, ?_⟩
      rw [hget _ _ (grid_lt hi hj), if_neg (by rintro (h | h); exacts [hx.ne' h, hy.ne' h]),
        massGradients_node f s m sp x0 y0 nx ny hx hy hnx hny hmc hval i j hi hj, ← val_of_col hu1, ← val_of_col hv1,
        hval "U" i j hi hj, hval "V" i j hi hj]

/-- **C71, square bins.** On every full grid of square bins, in any row order, the two fields added by add_density_gradient are the
slopes of the density along x and along y, and the one added by add_evaporation is `U ∂M/∂x + V ∂M/∂y` with these slopes.
(Missing: bins that are not square, for which the claim is false, `C71_counterexample`.) -/
theorem C71_square_bins_partial (f : Flow) (d : ℚ) (x0 y0 : ℚ) (nx ny : ℕ) (h : FullMap f (d, d) x0 y0 nx ny) (hd : 0 < d)
    (hnx : 2 ≤ nx) (hny : 2 ≤ ny) (hm : "M" ∈ names f.data) :
    (("grad_rho_x" ∉ names f.data ∧ "grad_rho_y" ∉ names f.data) → ∃ g gx gy, densityGradient f = .ok (g, gx, gy) ∧ ∀ i j, i < nx → j < ny →
        (val g.data "X" (j * nx + i) = x0 + d * (i : ℚ) ∧ val g.data "Y" (j * nx + i) = y0 + d * (j : ℚ)) ∧
        gx.getD (j * nx + i) none = some (slope nx (fun k => x0 + d * (k : ℚ)) (fun a => atNode f.data "M" (d, d) x0 y0 ("X", "Y") a j) i) ∧
        gy.getD (j * nx + i) none = some (slope ny (fun k => y0 + d * (k : ℚ)) (fun b => atNode f.data "M" (d, d) x0 y0 ("X", "Y") i b) j)) ∧
    (("evaporation" ∉ names f.data ∧ "U" ∈ names f.data ∧ "V" ∈ names f.data) → ∃ g ev, evaporation f = .ok (g, ev) ∧ ∀ i j, i < nx → j < ny →
        (val g.data "X" (j * nx + i) = x0 + d * (i : ℚ) ∧ val g.data "Y" (j * nx + i) = y0 + d * (j : ℚ)) ∧
        ev.getD (j * nx + i) none = some (
          atNode f.data "U" (d, d) x0 y0 ("X", "Y") i j *
            slope nx (fun k => x0 + d * (k : ℚ)) (fun a => atNode f.data "M" (d, d) x0 y0 ("X", "Y") a j) i +
          atNode f.data "V" (d, d) x0 y0 ("X", "Y") i j *
            slope ny (fun k => y0 + d * (k : ℚ)) (fun b => atNode f.data "M" (d, d) x0 y0 ("X", "Y") i b) j)) := by
  obtain ⟨h1, h2⟩ := C71_as_coded f (d, d) x0 y0 nx ny h hd hd hnx hny hm
  simp only [div_self hd.ne', mul_one] at h1 h2
  refine ⟨fun hn => ?_, fun hn => ?_⟩
  · obtain ⟨g, gx, gy, e, -, -, -, hv⟩ := h1 hn
    exact ⟨g, gx, gy, e, hv⟩
  · obtain ⟨g, ev, e, -, -, hv⟩ := h2 hn
    exact ⟨g, ev, e, hv⟩

theorem slope_linear {n : ℕ} (hn : 2 ≤ n) (x0 d a b : ℚ) (hd : 0 < d) {f : ℕ → ℚ} (hf : ∀ k, k < n → f k = a + b * (x0 + d * (k : ℚ))) {i : ℕ} (hi : i < n) :
    slope n (fun k => x0 + d * (k : ℚ)) f i = b := by
  unfold slope
  rw [hf _ (by omega), hf _ (by omega)]
  have hlt : i - 1 < min (i + 1) (n - 1) := by omega
  have : ((i - 1 : ℕ) : ℚ) < ((min (i + 1) (n - 1) : ℕ) : ℚ) := by exact_mod_cast hlt
  have hne : x0 + d * ((min (i + 1) (n - 1) : ℕ) : ℚ) - (x0 + d * ((i - 1 : ℕ) : ℚ)) ≠ 0 := by
    rw [show x0 + d * ((min (i + 1) (n - 1) : ℕ) : ℚ) - (x0 + d * ((i - 1 : ℕ) : ℚ)) = d * (((min (i + 1) (n - 1) : ℕ) : ℚ) - ((i - 1 : ℕ) : ℚ)) by ring]
    exact mul_ne_zero hd.ne' (sub_ne_zero.mpr this.ne')
  rw [div_eq_iff hne]
  ring

/-- **C71, counterexample.** On every full grid whose bins are not square, and for every linear density `a + b x + c y`, the
gradient along x comes out wrong unless `b = 0`, and that along y unless `c = 0`. -/
theorem C71_counterexample (f : Flow) (sp : ℚ × ℚ) (x0 y0 : ℚ) (nx ny : ℕ) (h : FullMap f sp x0 y0 nx ny) (hx : 0 < sp.1) (hy : 0 < sp.2)
    (hnx : 2 ≤ nx) (hny : 2 ≤ ny) (hm : "M" ∈ names f.data) (hn : "grad_rho_x" ∉ names f.data ∧ "grad_rho_y" ∉ names f.data) (a b c : ℚ)
    (hl : ∀ i j, i < nx → j < ny → atNode f.data "M" sp x0 y0 ("X", "Y") i j = a + b * (x0 + sp.1 * (i : ℚ)) + c * (y0 + sp.2 * (j : ℚ)))
    (hne : sp.1 ≠ sp.2) :
    ∃ g gx gy, densityGradient f = .ok (g, gx, gy) ∧ ∀ i j, i < nx → j < ny →
      gx.getD (j * nx + i) none = some (b * (sp.1 / sp.2)) ∧ gy.getD (j * nx + i) none = some (c * (sp.2 / sp.1)) ∧
      (b ≠ 0 → gx.getD (j * nx + i) none ≠ some b) ∧ (c ≠ 0 → gy.getD (j * nx + i) none ≠ some c) := by
  obtain ⟨g, gx, gy, e, -, -, -, hv⟩ := (C71_as_coded f sp x0 y0 nx ny h hx hy hnx hny hm).1 hn
  refine ⟨g, gx, gy, e, fun i j hi hj => ?_⟩
  obtain ⟨-, h1, h2⟩ := hv i j hi hj
  rw [slope_linear hnx x0 sp.1 (a + c * (y0 + sp.2 * (j : ℚ))) b hx (fun k hk => by rw [hl k j hk hj]; ring) hi] at h1
  rw [slope_linear hny y0 sp.2 (a + b * (x0 + sp.1 * (i : ℚ))) c hy (fun k hk => by rw [hl i k hi hk]) hj] at h2
  refine ⟨h1, h2, fun hb => ?_, fun hc => ?_⟩
  · rw [h1]
    intro h0
    rw [Option.some.injEq, mul_eq_left₀ hb, div_eq_one_iff_eq hy.ne'] at h0
    exact hne h0
  · rw [h2]
    intro h0
    rw [Option.some.injEq, mul_eq_left₀ hc, div_eq_one_iff_eq hx.ne'] at h0
    exact hne h0.symm

/-- A map of 2 × 3 bins in file order (column by column), with bins of 1 × 2 and density `1 + 2 x + 3 y`. -/
def exG : Flow := ⟨[("X", [0, 0, 0, 1, 1, 1]), ("Y", [0, 2, 4, 0, 2, 4]), ("M", [1, 7, 13, 3, 9, 15]), ("U", [1, 0, 0, 0, 0, 1]), ("V", [0, 0, 1, 0, 0, 1])],
  { shape := some (2, 3), spacing := some (1, 2) }⟩

theorem exG_full : FullMap exG (1, 2) 0 0 2 3 :=
  ⟨fullGrid_of_rows _ _ _ _ _ _ _ 6 rfl ⟨by decide, by decide⟩ (by decide) (by decide) (by decide) (by decide) (by decide +kernel) (by decide +kernel), rfl, rfl⟩

/-- The hypotheses hold for it; the gradients come out as (1, 6) instead of (2, 3). -/
example : (densityGradient exG).map (fun r => r.2) = .ok (List.replicate 6 (some 1), List.replicate 6 (some 6)) ∧
    (evaporation exG).map (fun r => r.2) = .ok [some 1, some 0, some 0, some 0, some 6, some 7] ∧
    (∀ i : ℕ, i < 2 → ∀ j : ℕ, j < 3 → atNode exG.data "M" (1, 2) 0 0 ("X", "Y") i j = 1 + 2 * (0 + 1 * (i : ℚ)) + 3 * (0 + 2 * (j : ℚ))) ∧
    densityGradient ⟨exG.data, { shape := some (2, 3) }⟩ = .error .typeError := by
  refine ⟨by decide +kernel, by decide +kernel, by decide +kernel, by decide +kernel⟩

/-- A map of 2 × 2 square bins meets the hypotheses of `C71_square_bins_partial`. -/
example : FullMap ⟨[("X", [1, 0, 0, 1]), ("Y", [0, 0, 1, 1]), ("M", [3, 1, 4, 8])], { shape := some (2, 2), spacing := some (1, 1) }⟩ (1, 1) 0 0 2 2 :=
  ⟨fullGrid_of_rows _ _ _ _ _ _ _ 4 rfl ⟨by decide, by decide⟩ (by decide) (by decide) (by decide) (by decide) (by decide +kernel) (by decide +kernel), rfl, rfl⟩

/-! ## C72 -/

theorem getD_map_bool (cs : List ℚ) (p : ℚ → Bool) {t : ℕ} (ht : t < cs.length) : (cs.map p).getD t false = p (cs.getD t 0) := by
  rw [List.getD_eq_getElem?_getD, List.getElem?_map, List.getD_eq_getElem?_getD, List.getElem?_eq_getElem ht]; rfl

theorem cutSystem_spec (cs : List ℚ) (lims : Option ℚ × Option ℚ) (hne : cs ≠ []) :
    ∃ m, cutSystem cs lims = .ok m ∧ ∀ t, t < cs.length → (m.getD t false = true ↔ Within lims.1 lims.2 (cs.getD t 0)) := by
  obtain ⟨lo, hlo⟩ := npMin_exists hne
  obtain ⟨hi, hhi⟩ := npMax_exists hne
  have hmem : ∀ t, t < cs.length → cs.getD t 0 ∈ cs := by
    intro t ht
    rw [List.getD_eq_getElem?_getD, List.getElem?_eq_getElem ht]
    exact List.getElem_mem ht
  have h1 := fun t ht => ((npMin_ok_iff cs lo).mp hlo).2 _ (hmem t ht)
  have h2 := fun t ht => ((npMax_ok_iff cs hi).mp hhi).2 _ (hmem t ht)
  unfold cutSystem
  obtain ⟨a, b⟩ := lims
  cases a <;> cases b
  · refine ⟨_, by simp only [hlo, hhi, Gmx.ok_bind]; rfl, fun t ht => ?_⟩
    rw [getD_map_bool _ _ ht]
    have a1 := h1 t ht
    have a2 := h2 t ht
    simp only [Within, Bool.and_eq_true, decide_eq_true_eq, reduceCtorEq, false_implies, implies_true, and_self, iff_true]
    exact ⟨a1, a2⟩
  · refine ⟨_, by simp only [hlo, Gmx.ok_bind]; rfl, fun t ht => ?_⟩
    rw [getD_map_bool _ _ ht]
    have a1 := h1 t ht
    simp only [Within, Bool.and_eq_true, decide_eq_true_eq, reduceCtorEq, false_implies, implies_true, true_and, Option.some.injEq, forall_eq']
    exact and_iff_right a1
  · refine ⟨_, by simp only [hhi, Gmx.ok_bind]; rfl, fun t ht => ?_⟩
    rw [getD_map_bool _ _ ht]
    have a2 := h2 t ht
    simp only [Within, Bool.and_eq_true, decide_eq_true_eq, reduceCtorEq, false_implies, implies_true, and_true, Option.some.injEq, forall_eq']
    exact and_iff_left a2
  · refine ⟨_, by simp only [Gmx.ok_bind]; rfl, fun t ht => ?_⟩
    rw [getD_map_bool _ _ ht]
    simp [Within]

theorem cutoffMask_spec (r : Record) (hw : Wf r) (clim : Option Label × Option ℚ) (hs : 0 < Flow.size r)
    (hc : ∀ l, clim.1 = some l → l ∈ names r) :
    ∃ m, cutoffMask r clim = .ok m ∧ ∀ t, t < Flow.size r → (m.getD t false = true ↔ AboveCutoff r clim t) := by
  obtain ⟨l, c⟩ := clim
  unfold cutoffMask
  cases l with
  | none =>
    refine ⟨_, rfl, fun t ht => ?_⟩
    simp [List.getD_eq_getElem?_getD, ht, AboveCutoff]
  | some l =>
    obtain ⟨cs, h1, h2⟩ := Sample.field_ok (hc l rfl)
    have hlen := col?_length hw h1
    obtain ⟨m, hm, hv⟩ := cutSystem_spec cs (c, none) (by intro h0; rw [h0] at hlen; simp at hlen; omega)
    refine ⟨m, by simp only [h2, Gmx.ok_bind, hm], fun t ht => ?_⟩
    rw [hv t (by omega), ← val_of_col h1]
    constructor
    · rintro ⟨h, -⟩ l' c' e
      simp only [Prod.mk.injEq, Option.some.injEq] at e
      rw [← e.1]
      exact h c' e.2
    · intro h
      refine ⟨fun a ha => h l a ?_, by simp⟩
      simp only at ha
      rw [ha]

theorem pick_val {r : Record} {l : Label} {c : List ℚ} (h : col? r l = some c) (idx : List ℕ) : pick idx c = idx.map (val r l) := by
  unfold pick
  exact List.map_congr_left fun t _ => (val_of_col h t).symm

/-- The weight of the arrow of row `t`: the value of the colour field, or 1 if there is no such field. -/
def arrowWeight (r : Record) (colour : Option Label) (t : ℕ) : ℚ :=
  match colour with
  | some c => if c ∈ names r then val r c t else 1
  | none => 1

/-- What get_quiver_data selects, for every non-empty map: the rows, in their order, in which both components of the flow differ
from 0 and which are within the limits and the cutoff. -/
theorem C72_as_coded (r : Record) (hw : Wf r) (hs : 0 < Flow.size r) (labels coords : Label × Label) (colour : Option Label)
    (clim : Option Label × Option ℚ) (xlim ylim : Option ℚ × Option ℚ) (hx : coords.1 ∈ names r) (hy : coords.2 ∈ names r)
    (hu : labels.1 ∈ names r) (hv : labels.2 ∈ names r) (hc : ∀ l, clim.1 = some l → l ∈ names r) :
    ∃ rows : List ℕ, rows.Pairwise (· < ·) ∧
      (∀ t, t ∈ rows ↔ t < Flow.size r ∧ (val r labels.1 t ≠ 0 ∧ val r labels.2 t ≠ 0) ∧ Within xlim.1 xlim.2 (val r coords.1 t) ∧
        Within ylim.1 ylim.2 (val r coords.2 t) ∧ AboveCutoff r clim t) ∧
      quiver r labels coords colour clim xlim ylim = .ok (rows.map (val r coords.1), rows.map (val r coords.2), rows.map (val r labels.1),
        rows.map (val r labels.2), rows.map (arrowWeight r colour)) := by
  obtain ⟨xs, x1, x2⟩ := Sample.field_ok hx
  obtain ⟨ys, y1, y2⟩ := Sample.field_ok hy
  obtain ⟨us, u1, u2⟩ := Sample.field_ok hu
  obtain ⟨vs, v1, v2⟩ := Sample.field_ok hv
  have lx := col?_length hw x1
  have ly := col?_length hw y1
  obtain ⟨mx, hmx, gx⟩ := cutSystem_spec xs xlim (by intro h0; rw [h0] at lx; simp at lx; omega)
  obtain ⟨my, hmy, gy⟩ := cutSystem_spec ys ylim (by intro h0; rw [h0] at ly; simp at ly; omega)
  obtain ⟨mc, hmc, gc⟩ := cutoffMask_spec r hw clim hs hc
  refine ⟨(List.range (Flow.size r)).filter fun t : ℕ =>
    decide (us.getD t 0 ≠ 0) && decide (vs.getD t 0 ≠ 0) && mx.getD t false && my.getD t false && mc.getD t false, ?_, ?_, ?_⟩
  · exact List.Pairwise.filter _ List.pairwise_lt_range
  · intro t
    rw [List.mem_filter, List.mem_range]
    refine and_congr_right fun ht => ?_
    simp only [Bool.and_eq_true, decide_eq_true_eq]
    rw [gx t (by omega), gy t (by omega), gc t ht, val_of_col u1, val_of_col v1, val_of_col x1, val_of_col y1]
    tauto
  · unfold quiver
    rw [x2, Gmx.ok_bind, y2, Gmx.ok_bind, u2, Gmx.ok_bind, v2, Gmx.ok_bind, hmx, Gmx.ok_bind, hmy, Gmx.ok_bind, hmc, Gmx.ok_bind]
    simp only
    rw [pick_val x1, pick_val y1, pick_val u1, pick_val v1]
    have : ∀ idx : List ℕ, (∀ t ∈ idx, t < Flow.size r) →
        pick idx ((colour.bind (col? r)).getD (List.replicate (Flow.size r) 1)) = idx.map (arrowWeight r colour) := by
      intro idx hidx
      unfold pick
      refine List.map_congr_left fun t ht => ?_
      cases colour with
      | none => simp [arrowWeight, List.getD_eq_getElem?_getD, hidx t ht]
      | some c =>
        by_cases hcn : c ∈ names r
        · obtain ⟨cs, c1, -⟩ := Sample.field_ok hcn
          simp [arrowWeight, hcn, c1, val_of_col c1]
        · have : col? r c = none := by
            rw [Option.eq_none_iff_forall_ne_some]
            intro a ha
            exact hcn ((col?_isSome_iff r c).mp ⟨a, ha⟩)
          simp [arrowWeight, hcn, this, List.getD_eq_getElem?_getD, hidx t ht]
    rw [this _ fun t ht => by
      have := (List.mem_filter.mp ht).1
      rwa [List.mem_range] at this]

/-- **C72, fields without one-sided flow.** If no bin has flow along one axis only, the arrows are exactly those of the bins that
have any flow and are within the limits and the cutoff, each once, at its position, with its flow and its weight.
(Missing: bins with flow along one axis only, which are dropped, `C72_counterexample`.) -/
theorem C72_exactly_bins_with_flow_partial (r : Record) (hw : Wf r) (hs : 0 < Flow.size r) (labels coords : Label × Label) (colour : Option Label)
    (clim : Option Label × Option ℚ) (xlim ylim : Option ℚ × Option ℚ) (hx : coords.1 ∈ names r) (hy : coords.2 ∈ names r)
    (hu : labels.1 ∈ names r) (hv : labels.2 ∈ names r) (hc : ∀ l, clim.1 = some l → l ∈ names r)
    (hboth : ∀ t, t < Flow.size r → (val r labels.1 t = 0 ↔ val r labels.2 t = 0)) :
    ∃ rows : List ℕ, rows.Pairwise (· < ·) ∧
      (∀ t, t ∈ rows ↔ t < Flow.size r ∧ ¬ (val r labels.1 t = 0 ∧ val r labels.2 t = 0) ∧ Within xlim.1 xlim.2 (val r coords.1 t) ∧
        Within ylim.1 ylim.2 (val r coords.2 t) ∧ AboveCutoff r clim t) ∧
      quiver r labels coords colour clim xlim ylim = .ok (rows.map (val r coords.1), rows.map (val r coords.2), rows.map (val r labels.1),
        rows.map (val r labels.2), rows.map (arrowWeight r colour)) := by
  obtain ⟨rows, h1, h2, h3⟩ := C72_as_coded r hw hs labels coords colour clim xlim ylim hx hy hu hv hc
  refine ⟨rows, h1, fun t => ?_, h3⟩
  rw [h2]
  refine and_congr_right fun ht => ?_
  have := hboth t ht
  tauto

/-- **C72, counterexample.** Flow along x only (and likewise along y only), however strong, is not shown: no map with such a flow
in every bin has any arrows, whatever the limits, cutoff and colour. -/
theorem C72_counterexample (r : Record) (hw : Wf r) (hs : 0 < Flow.size r) (labels coords : Label × Label) (colour : Option Label)
    (clim : Option Label × Option ℚ) (xlim ylim : Option ℚ × Option ℚ) (hx : coords.1 ∈ names r) (hy : coords.2 ∈ names r)
    (hu : labels.1 ∈ names r) (hv : labels.2 ∈ names r) (hc : ∀ l, clim.1 = some l → l ∈ names r)
    (hone : ∀ t, t < Flow.size r → (val r labels.1 t ≠ 0 ∧ val r labels.2 t = 0) ∨ (val r labels.1 t = 0 ∧ val r labels.2 t ≠ 0)) :
    quiver r labels coords colour clim xlim ylim = .ok ([], [], [], [], []) := by
  obtain ⟨rows, -, h2, h3⟩ := C72_as_coded r hw hs labels coords colour clim xlim ylim hx hy hu hv hc
  have : rows = [] := by
    rw [List.eq_nil_iff_forall_not_mem]
    intro t ht
    obtain ⟨h, ⟨ha, hb⟩, -⟩ := (h2 t).mp ht
    rcases hone t h with h | h
    · exact hb h.2
    · exact ha h.1
  rw [h3, this]
  rfl

/-- Three bins: flow along both axes, along x only, and none; the limits and the cutoff are inclusive. -/
example : quiver [("X", [0, 1, 2]), ("Y", [0, 0, 1]), ("U", [1, 2, 0]), ("V", [1, 0, 0]), ("M", [1, 2, 3])] ("U", "V") ("X", "Y") (some "M")
    (some "M", some 1) (some 0, none) (none, some 0) = .ok ([0], [0], [1], [1], [1]) := by decide +kernel

/-- Shear flow `U = y`: no arrows. -/
example : quiver [("X", [0, 0]), ("Y", [1, 2]), ("U", [1, 2]), ("V", [0, 0])] ("U", "V") ("X", "Y") none (none, none) (none, none) (none, none) =
    .ok ([], [], [], [], []) := by decide +kernel

/-! ## C93 -/

/-- **C93, absolute flow.** The added field is the non-negative number whose square is `U² + V²` in each bin; it is 0 exactly where
there is no flow, and an existing field 'flow' makes the function fail. -/
theorem C93_absolute_flow (r : Record) (hw : Wf r) (hu : "U" ∈ names r) (hv : "V" ∈ names r) :
    ("flow" ∈ names r → absoluteFlow r = .error .valueError) ∧
    ("flow" ∉ names r → ∃ c, absoluteFlow r = .ok c ∧ c.length = Flow.size r ∧ ∀ t, t < Flow.size r →
      0 ≤ c.getD t 0 ∧ c.getD t 0 ^ 2 = ((val r "U" t ^ 2 + val r "V" t ^ 2 : ℚ) : ℝ) ∧
      (c.getD t 0 = 0 ↔ val r "U" t = 0 ∧ val r "V" t = 0)) := by
  obtain ⟨us, u1, u2⟩ := Sample.field_ok hu
  obtain ⟨vs, v1, v2⟩ := Sample.field_ok hv
  have lu := col?_length hw u1
  have lv := col?_length hw v1
  unfold absoluteFlow
  rw [u2, Gmx.ok_bind, v2, Gmx.ok_bind]
  refine ⟨fun h => by unfold newName; rw [if_pos h]; rfl, fun h => ⟨_, by rw [newName_ok h, Gmx.ok_bind], by simp [lu, lv], fun t ht => ?_⟩⟩
  have e : (List.zipWith (fun u v : ℚ => Real.sqrt ((u : ℝ) ^ 2 + (v : ℝ) ^ 2)) us vs).getD t 0 =
      Real.sqrt ((val r "U" t : ℝ) ^ 2 + (val r "V" t : ℝ) ^ 2) := by
    rw [val_of_col u1, val_of_col v1, List.getD_eq_getElem?_getD, List.getD_eq_getElem?_getD, List.getD_eq_getElem?_getD,
      List.getElem?_zipWith, List.getElem?_eq_getElem (by omega : t < us.length), List.getElem?_eq_getElem (by omega : t < vs.length)]
    rfl
  rw [e]
  have hn : (0 : ℝ) ≤ (val r "U" t : ℝ) ^ 2 + (val r "V" t : ℝ) ^ 2 := by positivity
  refine ⟨Real.sqrt_nonneg _, by rw [Real.sq_sqrt hn]; push_cast; ring, ?_⟩
  rw [Real.sqrt_eq_zero hn]
  constructor
  · intro h0
    have h1 : (val r "U" t : ℝ) ^ 2 = 0 := by nlinarith [sq_nonneg (val r "U" t : ℝ), sq_nonneg (val r "V" t : ℝ)]
    have h2 : (val r "V" t : ℝ) ^ 2 = 0 := by nlinarith [sq_nonneg (val r "U" t : ℝ), sq_nonneg (val r "V" t : ℝ)]
    exact ⟨by exact_mod_cast pow_eq_zero_iff (two_ne_zero) |>.mp h1, by exact_mod_cast pow_eq_zero_iff (two_ne_zero) |>.mp h2⟩
  · rintro ⟨h1, h2⟩
    rw [h1, h2]; simp

theorem arctan2_polar (x y : ℚ) (h : ¬ (x = 0 ∧ y = 0)) :
    ∃ ρ : ℝ, 0 < ρ ∧ ρ ^ 2 = (x : ℝ) ^ 2 + (y : ℝ) ^ 2 ∧ (x : ℝ) = ρ * Real.cos (arctan2 y x) ∧ (y : ℝ) = ρ * Real.sin (arctan2 y x) := by
  have hz : (⟨(x : ℝ), (y : ℝ)⟩ : ℂ) ≠ 0 := by
    intro h0
    have h1 := congrArg Complex.re h0
    have h2 := congrArg Complex.im h0
    simp at h1 h2
    exact h ⟨h1, h2⟩
  refine ⟨‖(⟨(x : ℝ), (y : ℝ)⟩ : ℂ)‖, norm_pos_iff.mpr hz, ?_, ?_, ?_⟩
  · rw [← Complex.normSq_eq_norm_sq, Complex.normSq_apply]; ring
  · unfold arctan2; rw [Complex.norm_mul_cos_arg]
  · unfold arctan2; rw [Complex.norm_mul_sin_arg]

/-- **C93, radial flow.** At a bin at distance `ρ > 0` from the given point, the added field 'radial' times `ρ` is
`U (y - y₀) - V (x - x₀)`: the velocity around the point, positive clockwise. -/
theorem C93_radial_flow (r : Record) (o : ℚ × ℚ) (hx : "X" ∈ names r) (hy : "Y" ∈ names r) (hu : "U" ∈ names r) (hv : "V" ∈ names r) :
    ("radial" ∈ names r → radialFlow r o = .error .valueError) ∧
    ("radial" ∉ names r → ∃ c, radialFlow r o = .ok c ∧ c.length = Flow.size r ∧ ∀ t, t < Flow.size r → ∀ ρ : ℝ, 0 < ρ →
      ρ ^ 2 = (((val r "X" t - o.1) ^ 2 + (val r "Y" t - o.2) ^ 2 : ℚ) : ℝ) →
      c.getD t 0 * ρ = ((val r "U" t * (val r "Y" t - o.2) - val r "V" t * (val r "X" t - o.1) : ℚ) : ℝ)) := by
  obtain ⟨us, u1, u2⟩ := Sample.field_ok hu
  obtain ⟨vs, v1, v2⟩ := Sample.field_ok hv
  obtain ⟨xs, x1, x2⟩ := Sample.field_ok hx
  obtain ⟨ys, y1, y2⟩ := Sample.field_ok hy
  unfold radialFlow
  rw [y2, Gmx.ok_bind, x2, Gmx.ok_bind, u2, Gmx.ok_bind, v2, Gmx.ok_bind]
  refine ⟨fun h => by unfold newName; rw [if_pos h]; rfl, fun h => ⟨_, by rw [newName_ok h, Gmx.ok_bind], by simp, fun t ht ρ hρ hd => ?_⟩⟩
  rw [List.getD_eq_getElem?_getD, List.getElem?_map, List.getElem?_range ht]
  simp only [Option.map_some, Option.getD_some]
  rw [← val_of_col u1, ← val_of_col v1, ← val_of_col x1, ← val_of_col y1]
  have hne : ¬ (val r "X" t - o.1 = 0 ∧ val r "Y" t - o.2 = 0) := by
    rintro ⟨h1, h2⟩
    rw [h1, h2] at hd
    have : 0 < ρ ^ 2 := by positivity
    rw [hd] at this
    simp at this
  obtain ⟨σ, hσ, e, ex, ey⟩ := arctan2_polar _ _ hne
  have : σ = ρ := by
    have h2 : σ ^ 2 = ρ ^ 2 := by rw [e, hd]; push_cast; ring
    nlinarith
  subst this
  push_cast at ex ey ⊢
  rw [ex, ey]
  ring

/-- **C93, radial and absolute flow.** The radial flow is at most the absolute flow; it is 0 for motion straight away from the
point or towards it; and rigid rotation with angular velocity `ω` (counter-clockwise) gives `-ω` times the distance. -/
theorem C93_radial_bound_and_motions (r : Record) (hw : Wf r) (o : ℚ × ℚ) (hx : "X" ∈ names r) (hy : "Y" ∈ names r) (hu : "U" ∈ names r)
    (hv : "V" ∈ names r) (a c : List ℝ) (ha : absoluteFlow r = .ok a) (hc : radialFlow r o = .ok c) (t : ℕ) (ht : t < Flow.size r) (ρ : ℝ) (hρ : 0 < ρ)
    (hd : ρ ^ 2 = (((val r "X" t - o.1) ^ 2 + (val r "Y" t - o.2) ^ 2 : ℚ) : ℝ)) :
    |c.getD t 0| ≤ a.getD t 0 ∧
    (∀ k : ℚ, val r "U" t = k * (val r "X" t - o.1) → val r "V" t = k * (val r "Y" t - o.2) → c.getD t 0 = 0) ∧
    (∀ ω : ℚ, val r "U" t = -ω * (val r "Y" t - o.2) → val r "V" t = ω * (val r "X" t - o.1) → c.getD t 0 = -ω * ρ) := by
  have key : c.getD t 0 * ρ = ((val r "U" t * (val r "Y" t - o.2) - val r "V" t * (val r "X" t - o.1) : ℚ) : ℝ) := by
    obtain ⟨h1, h2⟩ := C93_radial_flow r o hx hy hu hv
    by_cases h : "radial" ∈ names r
    · rw [h1 h] at hc; cases hc
    · obtain ⟨c', e, -, hv'⟩ := h2 h
      rw [e] at hc
      cases hc
      exact hv' t ht ρ hρ hd
  have habs : 0 ≤ a.getD t 0 ∧ a.getD t 0 ^ 2 = ((val r "U" t ^ 2 + val r "V" t ^ 2 : ℚ) : ℝ) := by
    obtain ⟨h1, h2⟩ := C93_absolute_flow r hw hu hv
    by_cases h : "flow" ∈ names r
    · rw [h1 h] at ha; cases ha
    · obtain ⟨a', e, -, hv'⟩ := h2 h
      rw [e] at ha
      cases ha
      exact ⟨(hv' t ht).1, (hv' t ht).2.1⟩
  push_cast at key hd habs
  refine ⟨?_, fun k h1 h2 => ?_, fun ω h1 h2 => ?_⟩
  · apply abs_le_of_sq_le_sq _ habs.1
    rw [habs.2]
    have h3 : (c.getD t 0) ^ 2 * ρ ^ 2 ≤ ((val r "U" t : ℝ) ^ 2 + (val r "V" t : ℝ) ^ 2) * ρ ^ 2 := by
      rw [← mul_pow, key, hd]
      nlinarith [sq_nonneg ((val r "U" t : ℝ) * ((val r "X" t : ℝ) - o.1) + (val r "V" t : ℝ) * ((val r "Y" t : ℝ) - o.2))]
    exact le_of_mul_le_mul_right h3 (by positivity)
  · rw [h1, h2] at key
    push_cast at key
    have : c.getD t 0 * ρ = 0 := by rw [key]; ring
    rcases mul_eq_zero.mp this with h | h
    · exact h
    · exact absurd h hρ.ne'
  · rw [h1, h2] at key
    push_cast at key
    have : (c.getD t 0 - -ω * ρ) * ρ = 0 := by
      have : (-(ω : ℝ) * ρ) * ρ = -ω * ρ ^ 2 := by ring
      rw [sub_mul, key, this, hd]; ring
    rcases mul_eq_zero.mp this with h | h
    · linarith
    · exact absurd h hρ.ne'

/-- A rotating map: two bins at distances 5 and 2 from the point (0, 0), angular velocity 2. -/
example : let r : Record := [("X", [3, 0]), ("Y", [4, 2]), ("U", [-8, -4]), ("V", [6, 0])]
    Wf r ∧ "flow" ∉ names r ∧ "radial" ∉ names r ∧ (∀ t : ℕ, t < 2 → val r "U" t = -2 * (val r "Y" t - 0) ∧ val r "V" t = 2 * (val r "X" t - 0)) ∧
    (5 : ℚ) ^ 2 = (val r "X" 0 - 0) ^ 2 + (val r "Y" 0 - 0) ^ 2 :=
  ⟨⟨by decide, by decide⟩, by decide, by decide, by decide +kernel, by decide +kernel⟩

end Strata.View
