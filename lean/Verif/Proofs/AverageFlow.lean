import Verif.Proofs.AverageMean
/-! # Lemmas about `average_flow_data` -/
namespace Strata.Average
open Strata Strata.Flow

theorem isClose_self (a : ℚ) : isClose a a = true := by
  unfold isClose
  simp only [sub_self, abs_zero, decide_eq_true_eq]
  positivity

theorem forM_ok {α : Type} (l : List α) (f : α → Except Err Unit) (h : ∀ a ∈ l, f a = .ok ()) : l.forM f = .ok () := by
  induction l with
  | nil => rfl
  | cons a l ih =>
    show (f a >>= fun _ => l.forM f) = _
    rw [h a (by simp)]
    exact ih fun b hb => h b (by simp [hb])

theorem getSpacing_ok (maps : List Flow) (sp : ℚ × ℚ) (hne : maps ≠ []) (h : ∀ f ∈ maps, f.info.spacing = some sp) :
    getSpacing maps = .ok sp := by
  cases maps with
  | nil => exact absurd rfl hne
  | cons first rest =>
    have hf : rest.forM (fun f => spacingAgrees first.info.spacing f.info.spacing) = .ok () := by
      apply forM_ok
      intro f hf
      rw [h first (by simp), h f (by simp [hf])]
      simp [spacingAgrees, isClose_self]
    rw [h first (by simp)] at hf
    simp only [getSpacing, bind, Except.bind, h first (by simp), hf]

theorem getFlowData_ok (avg : Record) (g : Grid) (sp : ℚ × ℚ) (xg yg : ℚ) (hw : Wf avg) (hne : avg ≠ [])
    (hg : Lattice g.data sp xg yg g.nx g.ny) :
    getFlowData avg g sp = .ok ⟨avg, ⟨some ((g.nx : ℤ), (g.ny : ℤ)), some (xg, yg), some sp, some (g.nx * g.ny)⟩⟩ := by
  obtain ⟨cx, hx, hcx⟩ := field_ok hg.hasX
  obtain ⟨cy, hy, hcy⟩ := field_ok hg.hasY
  have ex : cx.getD 0 0 = xg := by
    have := (hg.row hg.nxpos hg.nypos).1
    rw [val_of_col hcx] at this
    simpa using this
  have ey : cy.getD 0 0 = yg := by
    have := (hg.row hg.nxpos hg.nypos).2
    rw [val_of_col hcy] at this
    simpa using this
  unfold getFlowData mk
  simp only at hx hy
  rw [hx, hy, setData_of_wf _ _ (collate_asArgs _) hne hw]
  simp only [bind, Except.bind, ex, ey, setInfo, pairVal, List.lookup_cons, setPair, setNum]
  have h1 : pyInt (g.nx : ℚ) = g.nx := by exact_mod_cast pyInt_intCast g.nx
  have h2 : pyInt (g.ny : ℚ) = g.ny := by exact_mod_cast pyInt_intCast g.ny
  have h3 : pyInt ((g.nx : ℚ) * (g.ny : ℚ)) = (g.nx : ℤ) * g.ny := by
    have := pyInt_intCast ((g.nx : ℤ) * g.ny)
    push_cast at this
    exact this
  simp [h1, h2, h3]

/-- The flow maps on the union grid: mean of the values at each position. -/
theorem averageFlow_spec (huge : ℚ) (maps : List Flow) (ws : List (Label × Label)) (ex : Bool) (sp : ℚ × ℚ)
    (ox oy : ℚ) (ls : List Label) (hne : maps ≠ []) (hx : 0 < sp.1) (hy : 0 < sp.2)
    (hm : ∀ f ∈ maps, GridMap f sp ∧ OnLattice sp ox oy f.data ∧ names f.data = ls)
    (hnd : (ws.map Prod.fst).Nodup)
    (hws : ∀ p ∈ ws, p.1 ∈ ls ∧ p.2 ∈ ls ∧ p.1 ≠ "X" ∧ p.1 ≠ "Y" ∧ p.2 ≠ "X" ∧ p.2 ≠ "Y" ∧ ∀ q ∈ ws, q.1 ≠ p.2) :
    ∃ out x0 y0, ∃ nx ny : ℕ, averageFlowData huge maps ws ex = .ok out ∧
      Lattice out.data sp x0 y0 nx ny ∧ names out.data = ls ∧
      out.info = { shape := some ((nx : ℤ), (ny : ℤ)), origin := some (x0, y0), spacing := some sp, numBins := some (nx * ny) } ∧
      (∀ f ∈ maps, ∀ s, s < Flow.size f.data → ∃ t, t < nx * ny ∧
        val f.data "X" s = val out.data "X" t ∧ val f.data "Y" s = val out.data "Y" t) ∧
      (∃ f ∈ maps, ∃ s, s < Flow.size f.data ∧ val f.data "X" s = x0) ∧
      (∃ f ∈ maps, ∃ s, s < Flow.size f.data ∧ val f.data "Y" s = y0) ∧
      (∃ f ∈ maps, ∃ s, s < Flow.size f.data ∧ val f.data "X" s = x0 + sp.1 * ((nx - 1 : ℕ) : ℚ)) ∧
      (∃ f ∈ maps, ∃ s, s < Flow.size f.data ∧ val f.data "Y" s = y0 + sp.2 * ((ny - 1 : ℕ) : ℚ)) ∧
      (∀ l ∈ ls, l ≠ "X" → l ≠ "Y" → (∀ p ∈ ws, p.1 ≠ l) → ∀ t, t < nx * ny → val out.data l t =
        (maps.map fun f => valueAt f.data l (val out.data "X" t) (val out.data "Y" t)).sum / maps.length) ∧
      ∀ p ∈ ws, ∀ t, t < nx * ny → val out.data p.1 t = divNan huge
        (maps.map fun f => valueAt f.data p.1 (val out.data "X" t) (val out.data "Y" t) *
          valueAt f.data p.2 (val out.data "X" t) (val out.data "Y" t)).sum
        (maps.map fun f => valueAt f.data p.2 (val out.data "X" t) (val out.data "Y" t)).sum := by
  have hpos : ∀ f ∈ maps, 0 < Flow.size f.data := by
    intro f hf
    obtain ⟨⟨x0, y0, nx, ny, -, -, hl⟩, -, -⟩ := hm f hf
    rw [hl.size]; exact Nat.mul_pos hl.nxpos hl.nypos
  have hused : maps.filter (fun f => !ex || decide (0 < Flow.size f.data)) = maps := by
    rw [List.filter_eq_self]
    intro f hf
    simp [hpos f hf]
  have hsp := getSpacing_ok maps sp hne (by intro f hf; obtain ⟨⟨_, _, _, _, _, h, _⟩, _⟩ := hm f hf; exact h)
  obtain ⟨f0, hf0⟩ := List.exists_mem_of_ne_nil maps hne
  obtain ⟨g, xg, yg, hgr, hgl, hgn, hgz, hminx, hminy, hmaxx, hmaxy, hcov⟩ :=
    combinedGrid_spec (maps.map (·.data)) sp ("X", "Y") (by decide) hx hy
      (by
        intro d hd
        obtain ⟨f, hf, rfl⟩ := List.mem_map.mp hd
        obtain ⟨⟨_, _, _, _, _, _, hl⟩, -, -⟩ := hm f hf
        exact ⟨hl.wf, hl.hasX, hl.hasY⟩)
      ⟨f0.data, List.mem_map_of_mem hf0, hpos f0 hf0⟩ ox oy
      (by
        intro d hd
        obtain ⟨f, hf, rfl⟩ := List.mem_map.mp hd
        exact (hm f hf).2.1)
  simp only at hgl hgz hminx hminy hmaxx hmaxy hcov
  have hgls : names g.data = ls := by
    cases hc : maps with
    | nil => exact absurd hc hne
    | cons a as =>
      rw [hgn a.data (by rw [hc]; rfl)]
      exact (hm a (by rw [hc]; simp)).2.2
  -- transfer of every map
  have htr : ∀ f ∈ maps, ∃ r, transferData g f.data f.info.shape sp = .ok r ∧
      (names r = ls ∧ Wf r ∧ Flow.size r = g.nx * g.ny ∧ Lattice r sp xg yg g.nx g.ny ∧
        ∀ l, l ≠ "X" → l ≠ "Y" → ∀ t, t < g.nx * g.ny → val r l t =
          valueAt f.data l (val g.data "X" t) (val g.data "Y" t)) := by
    intro f hf
    obtain ⟨⟨x0, y0, nx, ny, hsh, -, hl⟩, -, hln⟩ := hm f hf
    have hc0 := hcov f.data (List.mem_map_of_mem hf) (0 * nx + 0) (by rw [hl.size]; exact grid_lt hl.nxpos hl.nypos)
    obtain ⟨i0, j0, -, -, hxi, hyj⟩ := hc0
    have r0 := hl.row hl.nxpos hl.nypos
    simp only at r0
    rw [r0.1] at hxi
    rw [r0.2] at hyj
    simp only [Nat.cast_zero, mul_zero, add_zero] at hxi hyj
    rw [hxi, hyj] at hl
    have hlast := hcov f.data (List.mem_map_of_mem hf) ((ny - 1) * nx + (nx - 1))
      (by rw [hl.size]; exact grid_lt (by have := hl.nxpos; omega) (by have := hl.nypos; omega))
    obtain ⟨i1, j1, hi1, hj1, hxi1, hyj1⟩ := hlast
    have r1 := hl.row (i := nx - 1) (j := ny - 1) (by have := hl.nxpos; omega) (by have := hl.nypos; omega)
    simp only at r1
    rw [r1.1] at hxi1
    rw [r1.2] at hyj1
    have e1 : i0 + (nx - 1) = i1 := by
      have : sp.1 * ((i0 + (nx - 1) : ℕ) : ℚ) = sp.1 * (i1 : ℚ) := by rw [Nat.cast_add]; linarith
      exact_mod_cast mul_left_cancel₀ hx.ne' this
    have e2 : j0 + (ny - 1) = j1 := by
      have : sp.2 * ((j0 + (ny - 1) : ℕ) : ℚ) = sp.2 * (j1 : ℚ) := by rw [Nat.cast_add]; linarith
      exact_mod_cast mul_left_cancel₀ hy.ne' this
    have p1 := hl.nxpos
    have p2 := hl.nypos
    obtain ⟨r, h1, h2, h3, h4, h5⟩ := transferData_spec g f.data sp ("X", "Y") xg yg i0 j0 nx ny hx hy hgl hl
      (by omega) (by omega) (by rw [hgls, hln])
    refine ⟨r, by rw [hsh]; exact h1, by rw [h2, hgls], h3, h4, transfer_lattice hgl hl h2 h3 h4 h5, ?_⟩
    intro l hlx hly t ht
    have := transfer_valueAt hx hy hgl hl l ht
    simp only at this
    rw [h5 l t ht, this, hgz l hlx hly t]
  obtain ⟨onGrid, hog, hF⟩ := mapM_choose _ _ maps htr
  have hlen : onGrid.length = maps.length := hF.length_eq.symm
  have hgs : ∀ r ∈ onGrid, (names r = ls ∧ Wf r ∧ Flow.size r = g.nx * g.ny ∧ Lattice r sp xg yg g.nx g.ny) := by
    intro r hr
    obtain ⟨f, hf, a, b, c, d, -⟩ := forall2_mem_right hF r hr
    exact ⟨a, b, c, d⟩
  have hgv : ∀ l, l ≠ "X" → l ≠ "Y" → ∀ t, t < g.nx * g.ny →
      onGrid.map (fun r => val r l t) = maps.map fun f => valueAt f.data l (val g.data "X" t) (val g.data "Y" t) := by
    intro l h1 h2 t ht
    have : List.Forall₂ (fun a b => a = b) (maps.map fun f => valueAt f.data l (val g.data "X" t) (val g.data "Y" t))
        (onGrid.map fun r => val r l t) := by
      rw [List.forall₂_map_left_iff, List.forall₂_map_right_iff]
      exact hF.imp fun f r h => (h.2.2.2.2 l h1 h2 t ht).symm
    exact (List.forall₂_eq_eq_eq ▸ this).symm
  have hgv2 : ∀ l w, l ≠ "X" → l ≠ "Y" → w ≠ "X" → w ≠ "Y" → ∀ t, t < g.nx * g.ny →
      onGrid.map (fun r => val r l t * val r w t) = maps.map fun f =>
        valueAt f.data l (val g.data "X" t) (val g.data "Y" t) * valueAt f.data w (val g.data "X" t) (val g.data "Y" t) := by
    intro l w h1 h2 h3 h4 t ht
    have : List.Forall₂ (fun a b => a = b) (maps.map fun f =>
        valueAt f.data l (val g.data "X" t) (val g.data "Y" t) * valueAt f.data w (val g.data "X" t) (val g.data "Y" t))
        (onGrid.map fun r => val r l t * val r w t) := by
      rw [List.forall₂_map_left_iff, List.forall₂_map_right_iff]
      exact hF.imp fun f r h => by rw [h.2.2.2.2 l h1 h2 t ht, h.2.2.2.2 w h3 h4 t ht]
    exact (List.forall₂_eq_eq_eq ▸ this).symm
  obtain ⟨avg, ha1, ha2, ha3, ha4, ha5, ha6, ha7⟩ := averageData_spec huge onGrid ws ("X", "Y") ls (g.nx * g.ny)
    (by intro h; rw [h] at hlen; exact hne (List.length_eq_zero_iff.mp hlen.symm))
    (by intro r hr; obtain ⟨a, b, c, -⟩ := hgs r hr; exact ⟨b, a, c⟩) hnd
    (by intro p hp; obtain ⟨a, b, c, d, e, f, h⟩ := hws p hp; exact ⟨a, b, e, f, h⟩)
  simp only at ha5 ha6 ha7
  have hXls : "X" ∈ ls := by rw [← hgls]; exact hgl.hasX
  have hYls : "Y" ∈ ls := by rw [← hgls]; exact hgl.hasY
  obtain ⟨r0, hr0⟩ : ∃ r0, onGrid.head? = some r0 := by
    cases hc : onGrid with
    | nil => rw [hc] at hlen; exact absurd (List.length_eq_zero_iff.mp hlen.symm) hne
    | cons a as => exact ⟨a, rfl⟩
  have hr0m : r0 ∈ onGrid := List.mem_of_mem_head? hr0
  have hr0l := (hgs r0 hr0m).2.2.2
  have havl : Lattice avg sp xg yg g.nx g.ny := by
    refine ⟨ha2, hgl.nxpos, hgl.nypos, ha4, by rw [ha3]; exact hXls, by rw [ha3]; exact hYls, ?_, ?_⟩
    · intro t ht
      simp only
      rw [ha5 r0 hr0 "X" (Or.inl rfl) (fun p hp => (hws p hp).2.2.1)]
      exact hr0l.x t ht
    · intro t ht
      simp only
      rw [ha5 r0 hr0 "Y" (Or.inr rfl) (fun p hp => (hws p hp).2.2.2.1)]
      exact hr0l.y t ht
  have hco : ∀ t, t < g.nx * g.ny → val avg "X" t = val g.data "X" t ∧ val avg "Y" t = val g.data "Y" t := by
    intro t ht
    have a1 := havl.x t ht
    have a2 := havl.y t ht
    have b1 := hgl.x t ht
    have b2 := hgl.y t ht
    simp only at a1 a2 b1 b2
    rw [a1, a2, b1, b2]; exact ⟨rfl, rfl⟩
  refine ⟨⟨avg, ⟨some ((g.nx : ℤ), (g.ny : ℤ)), some (xg, yg), some sp, some (g.nx * g.ny)⟩⟩, xg, yg, g.nx, g.ny, ?_, havl, ha3, rfl, ?_, ?_, ?_, ?_, ?_, ?_, ?_⟩
  · unfold averageFlowData
    rw [hsp]
    simp only [bind, Except.bind, hused, hgr]
    simp only [hog, ha1]
    exact getFlowData_ok avg g sp xg yg ha2 (by intro h; rw [h] at ha3; rw [← ha3] at hXls; simp [names] at hXls) hgl
  · intro f hf s hs
    obtain ⟨i, j, hi, hj, e1, e2⟩ := hcov f.data (List.mem_map_of_mem hf) s hs
    have := havl.row hi hj
    simp only at this
    refine ⟨j * g.nx + i, grid_lt hi hj, ?_, ?_⟩
    · rw [e1, this.1]
    · rw [e2, this.2]
  · obtain ⟨d, hd, h⟩ := hminx; obtain ⟨f, hf, rfl⟩ := List.mem_map.mp hd; exact ⟨f, hf, h⟩
  · obtain ⟨d, hd, h⟩ := hminy; obtain ⟨f, hf, rfl⟩ := List.mem_map.mp hd; exact ⟨f, hf, h⟩
  · obtain ⟨d, hd, h⟩ := hmaxx; obtain ⟨f, hf, rfl⟩ := List.mem_map.mp hd; exact ⟨f, hf, h⟩
  · obtain ⟨d, hd, h⟩ := hmaxy; obtain ⟨f, hf, rfl⟩ := List.mem_map.mp hd; exact ⟨f, hf, h⟩
  · intro l hl h1 h2 h3 t ht
    simp only
    rw [ha6 l hl h1 h2 h3 t ht, hgv l h1 h2 t ht, hlen, (hco t ht).1, (hco t ht).2]
  · intro p hp t ht
    obtain ⟨_, _, c, d, e, f, _⟩ := hws p hp
    simp only
    rw [ha7 p hp t ht, hgv2 p.1 p.2 c d e f t ht, hgv p.2 e f t ht, (hco t ht).1, (hco t ht).2]

end Strata.Average
