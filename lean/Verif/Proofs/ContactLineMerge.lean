import Verif.Model.ContactLineMerge
import Verif.Proofs.ContactLine
import Verif.Proofs.AverageFlow
import Verif.Proofs.SimpleText
/-! # Lemmas about the combination of edges -/
namespace Strata.ContactLine
open Strata Strata.Flow Strata.Average

/-- Maps on a common lattice, on their combined grid. -/
theorem maps_on_grid (maps : List Flow) (sp : ℚ × ℚ) (ox oy : ℚ) (ls : List Label) (hne : maps ≠ []) (hx : 0 < sp.1) (hy : 0 < sp.2)
    (hm : ∀ f ∈ maps, GridMap f sp ∧ OnLattice sp ox oy f.data ∧ names f.data = ls) :
    ∃ g xg yg, getCombinedGrid (maps.map (·.data)) sp = .ok g ∧ Lattice g.data sp xg yg g.nx g.ny ∧ names g.data = ls ∧
      (∀ l, l ≠ "X" → l ≠ "Y" → ∀ t, val g.data l t = 0) ∧
      (∀ f ∈ maps, ∀ s, s < Flow.size f.data → ∃ i j, i < g.nx ∧ j < g.ny ∧ val f.data "X" s = xg + sp.1 * (i : ℚ) ∧ val f.data "Y" s = yg + sp.2 * (j : ℚ)) ∧
      ∀ f ∈ maps, ∃ r, transferData g f.data f.info.shape sp = .ok r ∧ names r = ls ∧ Lattice r sp xg yg g.nx g.ny ∧
        ∀ l, l ≠ "X" → l ≠ "Y" → ∀ t, t < g.nx * g.ny → val r l t = valueAt f.data l (val g.data "X" t) (val g.data "Y" t) := by
  have hpos : ∀ f ∈ maps, 0 < Flow.size f.data := by
    intro f hf
    obtain ⟨⟨x0, y0, nx, ny, -, -, hl⟩, -, -⟩ := hm f hf
    rw [hl.size]; exact Nat.mul_pos hl.nxpos hl.nypos
  obtain ⟨f0, hf0⟩ := List.exists_mem_of_ne_nil maps hne
  obtain ⟨g, xg, yg, hgr, hgl, hgn, hgz, hminx, hminy, hmaxx, hmaxy, hcov⟩ :=
    combinedGrid_spec (maps.map (·.data)) sp ("X", "Y") (by decide) hx hy
      (by
        intro d hd
        obtain ⟨f, hf, rfl⟩ := List.mem_map.mp hd
        obtain ⟨⟨_, _, _, _, _, _, hl⟩, -, -⟩ := hm f hf
        exact ⟨hl.wf, hl.hasX, hl.hasY⟩)
      ⟨f0.data, List.mem_map_of_mem hf0, hpos f0 hf0⟩ ox oy
      (by
        intro d hd
        obtain ⟨f, hf, rfl⟩ := List.mem_map.mp hd
        exact (hm f hf).2.1)
  simp only at hgl hgz hminx hminy hmaxx hmaxy hcov
  have hgls : names g.data = ls := by
    cases hc : maps with
    | nil => exact absurd hc hne
    | cons a as =>
      rw [hgn a.data (by rw [hc]; rfl)]
      exact (hm a (by rw [hc]; simp)).2.2
  refine ⟨g, xg, yg, hgr, hgl, hgls, hgz, fun f hf s hs => hcov f.data (List.mem_map_of_mem hf) s hs, ?_⟩
  intro f hf
  obtain ⟨⟨x0, y0, nx, ny, hsh, -, hl⟩, -, hln⟩ := hm f hf
  have hc0 := hcov f.data (List.mem_map_of_mem hf) (0 * nx + 0) (by rw [hl.size]; exact grid_lt hl.nxpos hl.nypos)
  obtain ⟨i0, j0, -, -, hxi, hyj⟩ := hc0
  have r0 := hl.row hl.nxpos hl.nypos
  simp only at r0
  rw [r0.1] at hxi
  rw [r0.2] at hyj
  simp only [Nat.cast_zero, mul_zero, add_zero] at hxi hyj
  rw [hxi, hyj] at hl
  have hlast := hcov f.data (List.mem_map_of_mem hf) ((ny - 1) * nx + (nx - 1))
    (by rw [hl.size]; exact grid_lt (by have := hl.nxpos; omega) (by have := hl.nypos; omega))
  obtain ⟨i1, j1, hi1, hj1, hxi1, hyj1⟩ := hlast
  have r1 := hl.row (i := nx - 1) (j := ny - 1) (by have := hl.nxpos; omega) (by have := hl.nypos; omega)
  simp only at r1
  rw [r1.1] at hxi1
  rw [r1.2] at hyj1
  have e1 : i0 + (nx - 1) = i1 := by
    have : sp.1 * ((i0 + (nx - 1) : ℕ) : ℚ) = sp.1 * (i1 : ℚ) := by rw [Nat.cast_add]; linarith
    exact_mod_cast mul_left_cancel₀ hx.ne' this
  have e2 : j0 + (ny - 1) = j1 := by
    have : sp.2 * ((j0 + (ny - 1) : ℕ) : ℚ) = sp.2 * (j1 : ℚ) := by rw [Nat.cast_add]; linarith
    exact_mod_cast mul_left_cancel₀ hy.ne' this
  have p1 := hl.nxpos
  have p2 := hl.nypos
  obtain ⟨r, h1, h2, h3, h4, h5⟩ := transferData_spec g f.data sp ("X", "Y") xg yg i0 j0 nx ny hx hy hgl hl
    (by omega) (by omega) (by rw [hgls, hln])
  refine ⟨r, by rw [hsh]; exact h1, by rw [h2, hgls], transfer_lattice hgl hl h2 h3 h4 h5, ?_⟩
  intro l hlx hly t ht
  have := transfer_valueAt hx hy hgl hl l ht
  simp only at this
  rw [h5 l t ht, this, hgz l hlx hly t]

theorem cell_eq_val (r : Record) (l : Label) (t : ℕ) : cell r l t = val r l t := rfl

theorem checkWeight_ok (l r : Record) (p : Label × Label) (h1 : p.1 ∈ names l) (h2 : p.1 ∈ names r) (h3 : p.2 ∈ names l) (h4 : p.2 ∈ names r) : checkWeight l r p = .ok () := by
  obtain ⟨a, ha, -⟩ := Average.field_ok h1
  obtain ⟨b, hb, -⟩ := Average.field_ok h2
  obtain ⟨c, hc, -⟩ := Average.field_ok h3
  obtain ⟨d, hd, -⟩ := Average.field_ok h4
  unfold checkWeight
  rw [ha, Gmx.ok_bind, hb, Gmx.ok_bind]
  split_ifs
  · rw [hc, Gmx.ok_bind, hd]; rfl
  · rfl

theorem mergeData_spec (g l r : Record) (hg : Wf g) (hl : ∀ p ∈ edgeWeights, p.1 ∈ names l ∧ p.2 ∈ names l) (hr : ∀ p ∈ edgeWeights, p.1 ∈ names r ∧ p.2 ∈ names r) :
    ∃ m, mergeData g l r = .ok m ∧ Wf m ∧ names m = names g ∧ (g ≠ [] → Flow.size m = Flow.size g) ∧
      ∀ lab ∈ names g, ∀ t, t < Flow.size g → val m lab t =
        mergeValue ((edgeWeights.lookup lab).map fun w => (val l w t, val r w t)) (val g lab t) (val l lab t) (val r lab t) := by
  have hf : edgeWeights.forM (checkWeight l r) = .ok () := by
    apply forM_ok
    intro p hp
    exact checkWeight_ok l r p (hl p hp).1 (hr p hp).1 (hl p hp).2 (hr p hp).2
  have hmg : mergeData g l r = .ok (g.map fun c => (c.1, (List.range c.2.length).map fun t : ℕ =>
    mergeValue ((edgeWeights.lookup c.1).map fun w => (cell l w t, cell r w t)) (c.2.getD t 0) (cell l c.1 t) (cell r c.1 t))) := by
    unfold mergeData
    rw [hf, Gmx.ok_bind]
  have hcol : ∀ lab, col? (g.map fun c => (c.1, (List.range c.2.length).map fun t : ℕ =>
      mergeValue ((edgeWeights.lookup c.1).map fun w => (cell l w t, cell r w t)) (c.2.getD t 0) (cell l c.1 t) (cell r c.1 t))) lab =
      (col? g lab).map fun c => (List.range c.length).map fun t : ℕ =>
        mergeValue ((edgeWeights.lookup lab).map fun w => (cell l w t, cell r w t)) (c.getD t 0) (cell l lab t) (cell r lab t) := by
    intro lab
    clear hmg hf hg
    induction g with
    | nil => rfl
    | cons c g ih =>
      unfold col? at ih ⊢
      rw [List.map_cons, List.lookup_cons, List.lookup_cons]
      cases h : (lab == c.1)
      · exact ih
      · simp only [beq_iff_eq] at h
        subst h
        rfl
  have hsz : g ≠ [] → Flow.size (g.map fun c => (c.1, (List.range c.2.length).map fun t : ℕ =>
      mergeValue ((edgeWeights.lookup c.1).map fun w => (cell l w t, cell r w t)) (c.2.getD t 0) (cell l c.1 t) (cell r c.1 t))) = Flow.size g := by
    intro hne
    cases g with
    | nil => exact absurd rfl hne
    | cons c g => simp [Flow.size]
  refine ⟨_, hmg, ?_, ?_, hsz, ?_⟩
  · refine ⟨?_, ?_⟩
    · have := hg.1
      simp only [names, List.map_map] at this ⊢
      exact this
    · intro c hc
      obtain ⟨d, hd, rfl⟩ := List.mem_map.mp hc
      rw [hsz (by rintro rfl; simp at hd)]
      simp only [List.length_map, List.length_range]
      exact hg.2 d hd
  · simp [names, List.map_map]
  · intro lab hlab t ht
    obtain ⟨c, hc⟩ := (col?_isSome_iff g lab).mpr hlab
    have hlen := col?_length hg hc
    have := hcol lab
    rw [hc, Option.map_some] at this
    rw [val_of_col this, val_of_col hc, List.getD_eq_getElem?_getD, List.getElem?_eq_getElem (by rw [List.length_map, List.length_range, hlen]; exact ht), Option.getD_some,
      List.getElem_map, List.getElem_range]
    rfl

end Strata.ContactLine
