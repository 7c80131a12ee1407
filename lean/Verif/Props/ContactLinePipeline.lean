import Verif.Spec.ContactLinePipeline
import Verif.Proofs.ContactLinePipeline
/-!
# Averaged and combined contact line edges: C104, C105
-/
namespace Strata.ContactLine
open Strata Strata.Flow Strata.Average Strata.Resample Strata.Interface

theorem rows_eq (e : Edge) : e.rows = selIdx e.map (some e.xlim.1, some e.xlim.2) (some e.ylim.1, some e.ylim.2) ("X", "Y") := by
  unfold Edge.rows selIdx
  apply List.filter_congr
  intro t _
  rw [Bool.eq_iff_iff]
  rw [decide_eq_true_iff, Bool.and_eq_true, within_iff, within_iff]
  unfold Edge.InBox Within
  simp only [Option.some.injEq]
  constructor
  · rintro ⟨a, b, c, d⟩
    exact ⟨⟨by rintro _ rfl; exact a, by rintro _ rfl; exact b⟩, by rintro _ rfl; exact c, by rintro _ rfl; exact d⟩
  · rintro ⟨⟨a, b⟩, c, d⟩
    exact ⟨a _ rfl, b _ rfl, c _ rfl, d _ rfl⟩

theorem mem_rows (e : Edge) (t : ℕ) : t ∈ e.rows ↔ t < Flow.size e.map ∧ e.InBox (val e.map "X" t) (val e.map "Y" t) := by
  unfold Edge.rows
  simp

/-- The cells of a good edge, moved to the origin and sorted. -/
theorem GoodEdge.adjusted {sp : ℚ × ℚ} {ls : List Label} {e : Edge} (h : GoodEdge sp ls e) (hx : 0 < sp.1) (hy : 0 < sp.2) (hxy : sp.1 ≤ 2 * sp.2) (direction : String)
    (hd : direction = "left" ∨ direction = "right") (c : ℚ × ℚ) (hc : Corner direction e c) :
    ∃ out, addAdjusted e.cells direction e.info = .ok (c, out) ∧ GridMap out sp ∧ OnLattice sp 0 0 out.data ∧ names out.data = ls ∧
      (∀ l, l ≠ "X" → l ≠ "Y" → ∀ x y, valueAt out.data l x y = e.value l (x + c.1) (y + c.2)) ∧
      (∀ t ∈ e.rows, HasBin out (val e.map "X" t - c.1) (val e.map "Y" t - c.2)) ∧
      ∀ x y, HasBin out x y → ∃ t ∈ e.rows, x = val e.map "X" t - c.1 ∧ y = val e.map "Y" t - c.2 := by
  obtain ⟨x0, y0, nx, ny, hg⟩ := h.grid
  obtain ⟨s, hs, t, ht, hst⟩ := h.layers
  have hne : selIdx e.map (some e.xlim.1, some e.xlim.2) (some e.ylim.1, some e.ylim.2) ("X", "Y") ≠ [] := by
    rw [← rows_eq]; intro h0; rw [h0] at hs; simp at hs
  obtain ⟨a, b, mx, my, ha, hb, hwx, hwy, hfg, -⟩ := selection_fullGrid hg hx hy (some e.xlim.1, some e.xlim.2) (some e.ylim.1, some e.ylim.2) hne
  rw [← rows_eq] at hfg
  -- rows are nodes of the sub-grid
  have hnode : ∀ t ∈ e.rows, ∃ i j : ℕ, i < mx ∧ j < my ∧ val e.map "X" t = x0 + sp.1 * (a : ℚ) + sp.1 * (i : ℚ) ∧ val e.map "Y" t = y0 + sp.2 * (b : ℚ) + sp.2 * (j : ℚ) := by
    intro t ht
    rw [rows_eq] at ht
    simp only [selIdx, List.mem_filter, List.mem_range, Bool.and_eq_true] at ht
    obtain ⟨i, j, hi, hj, e1, e2⟩ := hg.row t ht.1
    simp only at e1 e2
    rw [e1, e2] at ht
    have c1 := (hwx i hi).mp ht.2.1
    have c2 := (hwy j hj).mp ht.2.2
    refine ⟨i - a, j - b, by omega, by omega, ?_, ?_⟩
    · rw [e1, Nat.cast_sub c1.1]; ring
    · rw [e2, Nat.cast_sub c2.1]; ring
  have hnode' : ∀ i j : ℕ, i < mx → j < my → ∃ t ∈ e.rows, val e.map "X" t = x0 + sp.1 * (a : ℚ) + sp.1 * (i : ℚ) ∧ val e.map "Y" t = y0 + sp.2 * (b : ℚ) + sp.2 * (j : ℚ) := by
    intro i j hi hj
    obtain ⟨k, ⟨hk, e1, e2⟩, -⟩ := hfg.node i j hi hj
    simp only at e1 e2
    have hrne : e.map ≠ [] := by intro h0; have := hg.hasX; rw [h0] at this; simp [names] at this
    have hk' : k < e.rows.length := by rw [← size_gather _ _ hrne]; exact hk
    rw [val_gather hg.wf _ _ _ hk'] at e1 e2
    exact ⟨_, List.getElem_mem hk', e1, e2⟩
  have hmy : 2 ≤ my := by
    obtain ⟨i, j, -, hj, -, e2⟩ := hnode s hs
    obtain ⟨i', j', -, hj', -, f2⟩ := hnode t ht
    rcases Nat.lt_or_ge my 2 with hlt | hge
    · have : j = j' := by omega
      exact absurd (by rw [e2, f2, this]) hst
    · exact hge
  have hcy : c.2 = y0 + sp.2 * (b : ℚ) := by
    obtain ⟨u, hu, eu⟩ := hc.y
    obtain ⟨i, j, -, -, -, e2⟩ := hnode u hu
    obtain ⟨v, hv, -, f2⟩ := hnode' 0 0 hfg.nxpos hfg.nypos
    have := hc.lowest v hv
    rw [f2] at this
    simp only [Nat.cast_zero, mul_zero, add_zero] at this
    have : 0 ≤ sp.2 * (j : ℚ) := by positivity
    linarith
  have hcx : c.1 = if direction = "left" then x0 + sp.1 * (a : ℚ) + sp.1 * ((mx - 1 : ℕ) : ℚ) else x0 + sp.1 * (a : ℚ) := by
    obtain ⟨u, hu, eu⟩ := hc.x
    obtain ⟨i, j, hi, -, e1, -⟩ := hnode u hu
    by_cases hL : direction = "left"
    · rw [if_pos hL]
      obtain ⟨v, hv, f1, -⟩ := hnode' (mx - 1) 0 (by have := hfg.nxpos; omega) hfg.nypos
      have := hc.xmost v hv
      rw [if_pos hL, f1] at this
      have : sp.1 * (i : ℚ) ≤ sp.1 * ((mx - 1 : ℕ) : ℚ) := mul_le_mul_of_nonneg_left (by exact_mod_cast (by omega : i ≤ mx - 1)) hx.le
      linarith
    · rw [if_neg hL]
      obtain ⟨v, hv, f1, -⟩ := hnode' 0 0 hfg.nxpos hfg.nypos
      have := hc.xmost v hv
      rw [if_neg hL, f1] at this
      simp only [Nat.cast_zero, mul_zero, add_zero] at this
      have : 0 ≤ sp.1 * (i : ℚ) := by positivity
      linarith
  obtain ⟨out, h1, h2, h3, h4, h5, h6, h7⟩ := addAdjusted_spec e.cells sp _ _ mx my hx hy hxy hfg hmy e.info h.spacing direction hd
  rw [← hcx, ← hcy] at h1
  refine ⟨out, h1, h2, h3, by rw [h4]; unfold Edge.cells; rw [names_gather, h.labels], ?_, ?_, ?_⟩
  · intro l n1 n2 x y
    rw [h5 l n1 n2 x y, ← hcx, ← hcy]
    unfold Edge.cells Edge.value
    rw [rows_eq, valueAt_sel hg]
    have : (inLims (some e.xlim.1) (some e.xlim.2) (x + c.1) = true ∧ inLims (some e.ylim.1) (some e.ylim.2) (y + c.2) = true) ↔ e.InBox (x + c.1) (y + c.2) := by
      simp only [within_iff, Within, Edge.InBox, Option.some.injEq]
      constructor
      · rintro ⟨⟨a, b⟩, c, d⟩
        exact ⟨a _ rfl, b _ rfl, c _ rfl, d _ rfl⟩
      · rintro ⟨a, b, c, d⟩
        exact ⟨⟨by rintro _ rfl; exact a, by rintro _ rfl; exact b⟩, by rintro _ rfl; exact c, by rintro _ rfl; exact d⟩
    by_cases hin : e.InBox (x + c.1) (y + c.2)
    · rw [if_pos hin, if_pos (this.mpr hin)]
    · rw [if_neg hin, if_neg fun h0 => hin (this.mp h0)]
  · intro t ht
    obtain ⟨i, j, hi, hj, e1, e2⟩ := hnode t ht
    have := h6 i j hi hj
    rw [← hcx] at this
    rw [e1, e2, hcy]
    have ey : y0 + sp.2 * (b : ℚ) + sp.2 * (j : ℚ) - (y0 + sp.2 * (b : ℚ)) = sp.2 * (j : ℚ) := by ring
    rw [ey]
    exact this
  · intro x y hb
    obtain ⟨i, j, hi, hj, f1, f2⟩ := h7 x y hb
    obtain ⟨t, ht, g1, g2⟩ := hnode' i j hi hj
    rw [← hcx] at f1
    exact ⟨t, ht, by rw [f1, g1], by rw [f2, g2, hcy]; ring⟩

/-- **C104.** The average of an edge over a group of maps is taken relative to the inner corner of the edge in each map: in a bin at some distance from the corner, every field has the mean of its values at that distance
from the corner of each map (none outside of the cells), weighted by mass for the flow and number for the temperature; every cell of every map has its bin, and the inner corner is at the origin. The mean of the corners along x is
returned. (Missing: flat bins, edges with a single layer or without cells, see below.) -/
theorem C104_edge_average_partial (huge : ℚ) (sp : ℚ × ℚ) (ls : List Label) (hx : 0 < sp.1) (hy : 0 < sp.2) (hxy : sp.1 ≤ 2 * sp.2) (hls : ∀ l ∈ ["U", "V", "T", "M", "N"], l ∈ ls)
    (direction : String) (hd : direction = "left" ∨ direction = "right") (es : List Edge) (hne : es ≠ []) (h : ∀ e ∈ es, GoodEdge sp ls e) (corner : Edge → ℚ × ℚ)
    (hc : ∀ e ∈ es, Corner direction e (corner e)) :
    ∃ out, edgeAverage huge direction (es.map fun e => (e.cells, e.info)) = .ok ((es.map fun e => (corner e).1).sum / es.length, out) ∧
      GridMap out sp ∧ OnLattice sp 0 0 out.data ∧ names out.data = ls ∧
      (∀ e ∈ es, ∀ t ∈ e.rows, HasBin out (val e.map "X" t - (corner e).1) (val e.map "Y" t - (corner e).2)) ∧
      (HasBin out 0 0 ∧ ∀ x y, HasBin out x y → 0 ≤ y ∧ if direction = "left" then x ≤ 0 else 0 ≤ x) ∧
      ∀ x y, HasBin out x y →
        (∀ l ∈ ls, l ∉ ["X", "Y", "U", "V", "T"] → valueAt out.data l x y = (es.map fun e => e.value l (x + (corner e).1) (y + (corner e).2)).sum / es.length) ∧
        ∀ p ∈ [("U", "M"), ("V", "M"), ("T", "N")], (es.map fun e => e.value p.2 (x + (corner e).1) (y + (corner e).2)).sum ≠ 0 → valueAt out.data p.1 x y =
          (es.map fun e => e.value p.1 (x + (corner e).1) (y + (corner e).2) * e.value p.2 (x + (corner e).1) (y + (corner e).2)).sum /
            (es.map fun e => e.value p.2 (x + (corner e).1) (y + (corner e).2)).sum := by
  have hadj : ∀ e : Edge, ∃ out, e ∈ es → addAdjusted e.cells direction e.info = .ok (corner e, out) ∧ GridMap out sp ∧ OnLattice sp 0 0 out.data ∧ names out.data = ls ∧
      (∀ l, l ≠ "X" → l ≠ "Y" → ∀ x y, valueAt out.data l x y = e.value l (x + (corner e).1) (y + (corner e).2)) ∧
      (∀ t ∈ e.rows, HasBin out (val e.map "X" t - (corner e).1) (val e.map "Y" t - (corner e).2)) ∧
      ∀ x y, HasBin out x y → ∃ t ∈ e.rows, x = val e.map "X" t - (corner e).1 ∧ y = val e.map "Y" t - (corner e).2 := by
    intro e
    by_cases he : e ∈ es
    · obtain ⟨out, ho⟩ := (h e he).adjusted hx hy hxy direction hd (corner e) (hc e he)
      exact ⟨out, fun _ => ho⟩
    · exact ⟨⟨[], {}⟩, fun h0 => absurd h0 he⟩
  choose f hf using hadj
  have hmap : (es.map fun e => (e.cells, e.info)).mapM (fun c => addAdjusted c.1 direction c.2) = .ok (es.map fun e => (corner e, f e)) := by
    rw [Simple.mapM_map']
    exact mapM_ok' _ _ es fun e he => (hf e he).1
  obtain ⟨out, x0, y0, nx, ny, h1, h2, h3, h4, h5, ⟨fx, hfx, sx, hsx, ex⟩, ⟨fy, hfy, sy, hsy, ey⟩, ⟨gx, hgx, ux, hux, fx'⟩, -, h6, h7⟩ := averageFlow_spec huge (es.map f) edgeWeights true sp 0 0 ls (by simpa using hne) hx hy
    (by
      intro g hg
      obtain ⟨e, he, rfl⟩ := List.mem_map.mp hg
      exact ⟨(hf e he).2.1, (hf e he).2.2.1, (hf e he).2.2.2.1⟩)
    (by decide) (edgeWeights_good ls hls)
  have hval : ∀ l, l ≠ "X" → l ≠ "Y" → ∀ x y, (es.map f).map (fun g => valueAt g.data l x y) = es.map fun e => e.value l (x + (corner e).1) (y + (corner e).2) := by
    intro l n1 n2 x y
    rw [List.map_map]
    apply List.map_congr_left
    intro e he
    exact (hf e he).2.2.2.2.1 l n1 n2 x y
  have hfg := Lattice.fullGrid h2 hx hy
  refine ⟨out, ?_, ⟨x0, y0, nx, ny, by rw [h4], by rw [h4], h2⟩, ?_, h3, ?_, ?_, ?_⟩
  · unfold edgeAverage
    rw [hmap, Gmx.ok_bind]
    have e1 : (es.map fun e => (corner e, f e)).map Prod.snd = es.map f := by rw [List.map_map]; rfl
    have e2 : (es.map fun e => (corner e, f e)).map (fun a => a.1.1) = es.map fun e => (corner e).1 := by rw [List.map_map]; rfl
    rw [e1, h1, Gmx.ok_bind, e2, List.length_map]
  · -- on the lattice
    obtain ⟨e, he⟩ := List.exists_mem_of_ne_nil es hne
    obtain ⟨s, hs, -⟩ := (h e he).layers
    obtain ⟨k, hk, kx, ky⟩ := (hf e he).2.2.2.2.2.1 s hs
    obtain ⟨⟨kx', hkx⟩, ⟨ky', hky⟩⟩ := (hf e he).2.2.1 k hk
    obtain ⟨t, ht, t1, t2⟩ := h5 (f e) (List.mem_map_of_mem he) k hk
    simp only at hkx hky
    have X0 := h2.x t ht
    have Y0 := h2.y t ht
    simp only at X0 Y0
    intro u hu
    rw [h2.size] at hu
    simp only
    rw [h2.x u hu, h2.y u hu]
    refine ⟨⟨kx' - ((t % nx : ℕ) : ℤ) + ((u % nx : ℕ) : ℤ), ?_⟩, ⟨ky' - ((t / nx : ℕ) : ℤ) + ((u / nx : ℕ) : ℤ), ?_⟩⟩
    · rw [Int.cast_add, Int.cast_sub, Int.cast_natCast, Int.cast_natCast]
      linarith
    · rw [Int.cast_add, Int.cast_sub, Int.cast_natCast, Int.cast_natCast]
      linarith
  · intro e he t ht
    obtain ⟨k, hk, kx, ky⟩ := (hf e he).2.2.2.2.2.1 t ht
    obtain ⟨u, hu, u1, u2⟩ := h5 (f e) (List.mem_map_of_mem he) k hk
    exact ⟨u, by rw [h2.size]; exact hu, by rw [← u1, kx], by rw [← u2, ky]⟩
  · -- the corner
    have hside : ∀ g ∈ es.map f, ∀ x y, HasBin g x y → 0 ≤ y ∧ if direction = "left" then x ≤ 0 else 0 ≤ x := by
      intro g hg x y hb
      obtain ⟨e, he, rfl⟩ := List.mem_map.mp hg
      obtain ⟨t, ht, rfl, rfl⟩ := (hf e he).2.2.2.2.2.2 x y hb
      refine ⟨sub_nonneg.mpr ((hc e he).lowest t ht), ?_⟩
      have := (hc e he).xmost t ht
      split_ifs at this ⊢ <;> linarith
    have hY0 : 0 ≤ y0 := (hside fy hfy _ _ ⟨sy, hsy, rfl, rfl⟩).1.trans_eq ey
    have hX0 : direction ≠ "left" → 0 ≤ x0 := by
      intro hn
      have := (hside fx hfx _ _ ⟨sx, hsx, rfl, rfl⟩).2
      rw [if_neg hn, ex] at this
      exact this
    have hX1 : direction = "left" → x0 + sp.1 * ((nx - 1 : ℕ) : ℚ) ≤ 0 := by
      intro hn
      have := (hside gx hgx _ _ ⟨ux, hux, rfl, rfl⟩).2
      rw [if_pos hn, fx'] at this
      exact this
    have hall : ∀ x y, HasBin out x y → 0 ≤ y ∧ if direction = "left" then x ≤ 0 else 0 ≤ x := by
      rintro x y ⟨t, ht, rfl, rfl⟩
      rw [h2.size] at ht
      have hXt := h2.x t ht
      have hYt := h2.y t ht
      simp only at hXt hYt
      rw [hXt, hYt]
      have a1 : 0 ≤ sp.2 * ((t / nx : ℕ) : ℚ) := by positivity
      have a2 : 0 ≤ sp.1 * ((t % nx : ℕ) : ℚ) := by positivity
      have a3 : sp.1 * ((t % nx : ℕ) : ℚ) ≤ sp.1 * ((nx - 1 : ℕ) : ℚ) := by
        have := Nat.mod_lt t h2.nxpos
        exact mul_le_mul_of_nonneg_left (by exact_mod_cast (by omega : t % nx ≤ nx - 1)) hx.le
      refine ⟨by linarith, ?_⟩
      split_ifs with hn
      · have := hX1 hn; linarith
      · have := hX0 hn; linarith
    refine ⟨?_, hall⟩
    obtain ⟨e, he⟩ := List.exists_mem_of_ne_nil es hne
    obtain ⟨s, hs, es1⟩ := (hc e he).x
    obtain ⟨s', hs', es2⟩ := (hc e he).y
    obtain ⟨k, hk, kx, ky⟩ := (hf e he).2.2.2.2.2.1 s hs
    obtain ⟨u, hu, u1, u2⟩ := h5 (f e) (List.mem_map_of_mem he) k hk
    obtain ⟨k', hk', kx', ky'⟩ := (hf e he).2.2.2.2.2.1 s' hs'
    obtain ⟨u', hu', u1', u2'⟩ := h5 (f e) (List.mem_map_of_mem he) k' hk'
    have hu0 : val out.data "X" u = 0 := by rw [← u1, kx, es1]; ring
    have hu0' : val out.data "Y" u' = 0 := by rw [← u2', ky', es2]; ring
    have hlt : u' / nx * nx + u % nx < nx * ny := by
      have a := Nat.div_lt_of_lt_mul hu'
      have b := Nat.mod_lt u h2.nxpos
      exact grid_lt b a
    have hrow := h2.row (i := u % nx) (j := u' / nx) (Nat.mod_lt u h2.nxpos) (Nat.div_lt_of_lt_mul hu')
    refine ⟨u' / nx * nx + u % nx, by rw [h2.size]; exact hlt, ?_, ?_⟩
    · rw [← hu0, h2.x u hu]; exact hrow.1
    · rw [← hu0', h2.y u' hu']; exact hrow.2
  · rintro x y ⟨t, ht, rfl, rfl⟩
    have hat : ∀ l, valueAt out.data l (val out.data "X" t) (val out.data "Y" t) = val out.data l t := fun l => hfg.valueAt_row l ht
    rw [h2.size] at ht
    constructor
    · intro l hl hn
      simp only [List.mem_cons, List.not_mem_nil, or_false, not_or] at hn
      obtain ⟨n1, n2, n3, n4, n5⟩ := hn
      rw [hat, h6 l hl n1 n2 (by
        intro p hp
        simp only [edgeWeights, List.mem_cons, List.not_mem_nil, or_false] at hp
        rcases hp with rfl | rfl | rfl
        exacts [Ne.symm n3, Ne.symm n4, Ne.symm n5]) t ht, hval l n1 n2, List.length_map]
    · intro p hp hw
      have hp' : p.1 ≠ "X" ∧ p.1 ≠ "Y" ∧ p.2 ≠ "X" ∧ p.2 ≠ "Y" := by
        simp only [List.mem_cons, List.not_mem_nil, or_false] at hp
        rcases hp with rfl | rfl | rfl <;> decide
      rw [hat, h7 p hp t ht, hval p.2 hp'.2.2.1 hp'.2.2.2]
      unfold divNan
      rw [if_neg hw]
      congr 2
      rw [List.map_map]
      apply List.map_congr_left
      intro e he
      simp only [Function.comp]
      rw [(hf e he).2.2.2.2.1 p.1 hp'.1 hp'.2.1, (hf e he).2.2.2.2.1 p.2 hp'.2.2.1 hp'.2.2.2]

/-! ## Edges for which the average fails -/

theorem systemOf_ok {r : Record} {s : System} (h : systemOf r = .ok s) :
    "X" ∈ names r ∧ "Y" ∈ names r ∧ s.length = Flow.size r ∧ ∀ t, t < Flow.size r → (row s t).x = val r "X" t ∧ (row s t).y = val r "Y" t := by
  unfold systemOf at h
  obtain ⟨xs, hxs, h⟩ := Simple.bind_eq_ok h
  obtain ⟨ys, hys, h⟩ := Simple.bind_eq_ok h
  obtain ⟨ms, hms, h⟩ := Simple.bind_eq_ok h
  injection h with h
  have hX : col? r "X" = some xs := by
    unfold field at hxs
    cases hc : col? r "X" with
    | none => rw [hc] at hxs; cases hxs
    | some c => rw [hc] at hxs; cases hxs; rfl
  have hY : col? r "Y" = some ys := by
    unfold field at hys
    cases hc : col? r "Y" with
    | none => rw [hc] at hys; cases hys
    | some c => rw [hc] at hys; cases hys; rfl
  refine ⟨(col?_isSome_iff r "X").mp ⟨xs, hX⟩, (col?_isSome_iff r "Y").mp ⟨ys, hY⟩, by rw [← h]; simp, ?_⟩
  intro t ht
  unfold row
  rw [← h, List.getD_eq_getElem?_getD, List.getElem?_map, List.getElem?_range ht]
  simp only [Option.map_some, Option.getD_some]
  exact ⟨by rw [val_of_col hX], by rw [val_of_col hY]⟩

/-- The cells of an interface side are an edge. -/
theorem cellsOfEdge_edge {r : Record} {s : System} (h : systemOf r = .ok s) (inds : List ℕ) (left : Bool) (dx eh : ℚ) (info : Info) :
    ∃ e : Edge, e.map = r ∧ e.info = info ∧ cellsOfEdge s inds left dx eh = e.rows := by
  obtain ⟨-, -, hlen, hrow⟩ := systemOf_ok h
  cases inds with
  | nil =>
    refine ⟨⟨r, info, (1, 0), (1, 0)⟩, rfl, rfl, ?_⟩
    symm
    unfold Edge.rows cellsOfEdge
    rw [List.filter_eq_nil_iff]
    intro t _
    rw [decide_eq_true_iff]
    unfold Edge.InBox
    rintro ⟨a, b, -⟩
    simp only at a b
    linarith
  | cons a rest =>
    have key : ∀ x1 x2 y1 y2 : ℚ, ∃ e : Edge, e.map = r ∧ e.info = info ∧
        ((List.range s.length).filter fun t => decide (x1 ≤ (row s t).x ∧ (row s t).x ≤ x2 ∧ y1 ≤ (row s t).y ∧ (row s t).y ≤ y2)) = e.rows := by
      intro x1 x2 y1 y2
      refine ⟨⟨r, info, (x1, x2), (y1, y2)⟩, rfl, rfl, ?_⟩
      unfold Edge.rows
      rw [hlen]
      apply List.filter_congr
      intro t ht
      rw [(hrow t (List.mem_range.mp ht)).1, (hrow t (List.mem_range.mp ht)).2]
      rfl
    unfold cellsOfEdge
    simp only
    exact key _ _ _ _

/-- **C104, the cells.** The cells extracted from a map are those of two boxes, as averaged above. -/
theorem C104_cells (r : Record) (o : Opts) (area : ℚ × ℚ) (eh : ℚ) (L R : Record) (h : mapEdges r o area eh = .ok (L, R)) (info : Info) :
    ∃ l m : Edge, l.map = r ∧ l.info = info ∧ m.map = r ∧ m.info = info ∧ L = l.cells ∧ R = m.cells := by
  unfold mapEdges at h
  obtain ⟨s, hs, h⟩ := Simple.bind_eq_ok h
  obtain ⟨c, hc, h⟩ := Simple.bind_eq_ok h
  injection h with h
  injection h with hL hR
  unfold contactLineCells at hc
  obtain ⟨pts, -, hc⟩ := Simple.bind_eq_ok hc
  injection hc with hc
  obtain ⟨l, l1, l2, l3⟩ := cellsOfEdge_edge hs ((interfaceOfHeight s pts area.2).map Prod.fst) true area.1 eh info
  obtain ⟨m, m1, m2, m3⟩ := cellsOfEdge_edge hs ((interfaceOfHeight s pts area.2).map Prod.snd) false area.1 eh info
  refine ⟨l, m, l1, l2, m1, m2, ?_, ?_⟩
  · rw [← hL, ← hc, Edge.cells, l1, ← l3]
  · rw [← hR, ← hc, Edge.cells, m1, ← m3]

/-- **C104, which cells.** The interface is that of the mass: there are rows whose coordinates are the X and Y and whose value is the M of the map, with an interface `pts` of theirs,
and the cells are the rows of the map in the boxes that span the interface up to the height of the area and one width inwards, in the order of the map. -/
theorem C104_interface_of_mass (r : Record) (o : Opts) (w ht eh : ℚ) (L R : Record) (h : mapEdges r o (w, ht) eh = .ok (L, R)) :
    ∃ (s : System) (pts : List (ℕ × ℕ)) (l m : List ℕ), s.length = Flow.size r ∧
      (∀ t, t < Flow.size r → (row s t).x = val r "X" t ∧ (row s t).y = val r "Y" t ∧ (row s t).v = val r "M" t) ∧
      getInterface s none o = .ok pts ∧ L = gather l r ∧ R = gather m r ∧ l.Pairwise (· < ·) ∧ m.Pairwise (· < ·) ∧
      (∀ t, t ∈ l ↔ InBox s pts Prod.fst w ht eh t) ∧ ∀ t, t ∈ m ↔ InBox s pts Prod.snd (-w) ht eh t := by
  unfold mapEdges at h
  obtain ⟨s, hs, h⟩ := Simple.bind_eq_ok h
  obtain ⟨c, hc, h⟩ := Simple.bind_eq_ok h
  injection h with h
  injection h with hL hR
  obtain ⟨-, -, hlen, hrow⟩ := systemOf_ok hs
  cases hp : getInterface s none o with
  | error e => rw [(C38_errors s none o (w, ht) eh).1 e hp] at hc; cases hc
  | ok pts =>
    obtain ⟨L', R', e1, p1, p2, m1, n1⟩ := C38_cells_are_the_box s none o w ht eh pts hp
    rw [e1] at hc
    injection hc with hc
    subst hc
    refine ⟨s, pts, L', R', hlen, fun t ht => ⟨(hrow t ht).1, (hrow t ht).2, ?_⟩, hp, hL.symm, hR.symm, p1, p2, m1, n1⟩
    unfold systemOf at hs
    obtain ⟨xs, -, hs⟩ := Simple.bind_eq_ok hs
    obtain ⟨ys, -, hs⟩ := Simple.bind_eq_ok hs
    obtain ⟨ms, hms, hs⟩ := Simple.bind_eq_ok hs
    injection hs with hs
    have hM : col? r "M" = some ms := by
      unfold field at hms
      cases hc : col? r "M" with
      | none => rw [hc] at hms; cases hms
      | some c => rw [hc] at hms; cases hms; rfl
    unfold row
    rw [← hs, List.getD_eq_getElem?_getD, List.getElem?_map, List.getElem?_range ht]
    simp only [Option.map_some, Option.getD_some]
    rw [val_of_col hM]

/-- An edge of a full grid with its cells, if any, in one layer. -/
structure FlatEdge (sp : ℚ × ℚ) (e : Edge) : Prop where
  wf : Wf e.map
  hasX : "X" ∈ names e.map
  hasY : "Y" ∈ names e.map
  spacing : e.info.spacing = some sp
  flat : ∀ s ∈ e.rows, ∀ t ∈ e.rows, val e.map "Y" s = val e.map "Y" t

theorem FlatEdge.fails {sp : ℚ × ℚ} {e : Edge} (h : FlatEdge sp e) (hx : 0 < sp.1) (hy : 0 < sp.2) (direction : String) (hd : direction = "left" ∨ direction = "right") :
    addAdjusted e.cells direction e.info = .error .indexError := by
  have hne : e.map ≠ [] := by intro h0; have := h.hasX; rw [h0] at this; simp [names] at this
  apply addAdjusted_one_layer _ (wf_gather _ h.wf) (by rw [names_gather]; exact h.hasX) (by rw [names_gather]; exact h.hasY) sp hx hy _ _ h.spacing
    direction hd
  intro s t hs ht
  rw [size_gather _ _ hne] at hs ht
  rw [val_gather h.wf _ _ _ hs, val_gather h.wf _ _ _ ht]
  exact h.flat _ (List.getElem_mem hs) _ (List.getElem_mem ht)

/-- An edge with cells has an inner corner. -/
theorem corner_exists (direction : String) (e : Edge) (hne : e.rows ≠ []) : ∃ c, Corner direction e c := by
  obtain ⟨y, hy⟩ := npMin_exists (l := e.rows.map (val e.map "Y")) (by simpa using hne)
  rw [npMin_ok_iff] at hy
  obtain ⟨hy1, hy2⟩ := hy
  have hY : ∃ t ∈ e.rows, val e.map "Y" t = y := by simpa using hy1
  have hY2 : ∀ t ∈ e.rows, y ≤ val e.map "Y" t := fun t ht => hy2 _ (List.mem_map_of_mem ht)
  by_cases hd : direction = "left"
  · obtain ⟨x, hx⟩ := npMax_exists (l := e.rows.map (val e.map "X")) (by simpa using hne)
    rw [npMax_ok_iff] at hx
    exact ⟨(x, y), by simpa using hx.1, hY, fun t ht => by rw [if_pos hd]; exact hx.2 _ (List.mem_map_of_mem ht), hY2⟩
  · obtain ⟨x, hx⟩ := npMin_exists (l := e.rows.map (val e.map "X")) (by simpa using hne)
    rw [npMin_ok_iff] at hx
    exact ⟨(x, y), by simpa using hx.1, hY, fun t ht => by rw [if_neg hd]; exact hx.2 _ (List.mem_map_of_mem ht), hY2⟩

/-- **C104, counterexample: flat edges.** One map in a group without cells at the edge, or with all of them in one layer, and the average of the group raises `IndexError`, whatever the other maps. -/
theorem C104_flat_counterexample (huge : ℚ) (sp : ℚ × ℚ) (ls : List Label) (hx : 0 < sp.1) (hy : 0 < sp.2) (hxy : sp.1 ≤ 2 * sp.2) (direction : String)
    (hd : direction = "left" ∨ direction = "right") (es : List Edge) (h : ∀ e ∈ es, GoodEdge sp ls e ∨ FlatEdge sp e) (hbad : ∃ e ∈ es, FlatEdge sp e) :
    edgeAverage huge direction (es.map fun e => (e.cells, e.info)) = .error .indexError := by
  obtain ⟨b, hb, hf⟩ := hbad
  have : (es.map fun e => (e.cells, e.info)).mapM (fun c => addAdjusted c.1 direction c.2) = .error .indexError := by
    rw [Simple.mapM_map']
    apply mapM_error _ _ es b hb (hf.fails hx hy direction hd)
    intro e he err herr
    rcases h e he with hg | hg
    · obtain ⟨c, hc⟩ := corner_exists direction e (by obtain ⟨s, hs, -⟩ := hg.layers; intro h0; rw [h0] at hs; simp at hs)
      obtain ⟨out, ho, -⟩ := hg.adjusted hx hy hxy direction hd c hc
      rw [ho] at herr
      cases herr
    · rw [hg.fails hx hy direction hd] at herr
      cases herr
      rfl
  unfold edgeAverage
  rw [this]
  rfl

/-- **C104, counterexample: the default area.** With an extraction area of no height (the default both of the functions and of the command line) there is never more than one layer: every map, with or without
an interface, makes the average of its group fail. -/
theorem C104_default_area_counterexample (r : Record) (hw : Wf r) (o : Opts) (w ht eh : ℚ) (hht : ht ≤ 0) (L R : Record) (h : mapEdges r o (w, ht) eh = .ok (L, R)) (info : Info) (sp : ℚ × ℚ)
    (hx : 0 < sp.1) (hy : 0 < sp.2) (hi : info.spacing = some sp) :
    addAdjusted L "left" info = .error .indexError ∧ addAdjusted R "right" info = .error .indexError := by
  unfold mapEdges at h
  obtain ⟨s, hs, h⟩ := Simple.bind_eq_ok h
  obtain ⟨c, hc, h⟩ := Simple.bind_eq_ok h
  injection h with h
  injection h with hL hR
  obtain ⟨hX, hY, hlen, hrow⟩ := systemOf_ok hs
  have hne : r ≠ [] := by rintro rfl; simp [names] at hX
  cases hp : getInterface s none o with
  | error e => rw [(C38_errors s none o (w, ht) eh).1 e hp] at hc; cases hc
  | ok pts =>
    have hlay := getInterface_layers hp
    obtain ⟨L', R', e1, -, -, m1, n1⟩ := C38_cells_are_the_box s none o w ht eh pts hp
    rw [e1] at hc
    injection hc with hc
    -- only the lowest layer is used
    have hone : ∀ p q, UsedLayer s pts ht p → UsedLayer s pts ht q → p = q := by
      have hhead : ∀ p, UsedLayer s pts ht p → pts.head? = some p := by
        rintro p ⟨hp1, hp2⟩
        cases hpts : pts with
        | nil => rw [hpts] at hp1; simp at hp1
        | cons f rest =>
          rcases hp2 f (by rw [hpts]; rfl) with rfl | hle
          · rfl
          · rw [hpts] at hp1
            rcases List.mem_cons.mp hp1 with rfl | hin
            · rfl
            · have := hlay.asc
              rw [hpts, List.pairwise_cons] at this
              have := this.1 p hin
              linarith
      intro p q hp hq
      have a := hhead p hp
      rw [hhead q hq] at a
      exact (Option.some.inj a).symm
    have hy1 : ∀ (side : ℕ × ℕ → ℕ) (w : ℚ) (t u : ℕ), InBox s pts side w ht eh t → InBox s pts side w ht eh u → (row s t).y = (row s u).y := by
      have key : ∀ (side : ℕ × ℕ → ℕ) (w : ℚ) (t : ℕ), InBox s pts side w ht eh t → ∃ p, UsedLayer s pts ht p ∧ (row s t).y = (row s (side p)).y := by
        rintro side w t ⟨-, p, hp, -, ⟨a, ⟨q, hq, rfl⟩, ha⟩, ⟨b, ⟨q', hq', rfl⟩, hb⟩⟩
        have := hone q q' hq hq'
        subst this
        exact ⟨q, hq, le_antisymm hb ha⟩
      intro side w t u htb hub
      obtain ⟨p, hp, e⟩ := key side w t htb
      obtain ⟨q, hq, f⟩ := key side w u hub
      rw [e, f, hone p q hp hq]
    have hfail : ∀ (I : List ℕ) (side : ℕ × ℕ → ℕ) (w : ℚ) (direction : String), (direction = "left" ∨ direction = "right") → (∀ t, t ∈ I ↔ InBox s pts side w ht eh t) →
        addAdjusted (gather I r) direction info = .error .indexError := by
      intro I side w direction hd hI
      apply addAdjusted_one_layer _ (wf_gather _ hw) (by rw [names_gather]; exact hX) (by rw [names_gather]; exact hY) sp hx hy _ _ hi direction hd
      intro t u htt huu
      rw [size_gather _ _ hne] at htt huu
      rw [val_gather hw _ _ _ htt, val_gather hw _ _ _ huu]
      have a := (hI _).mp (List.getElem_mem htt)
      have b := (hI _).mp (List.getElem_mem huu)
      have ha := hlen ▸ a.1
      have hb := hlen ▸ b.1
      rw [← (hrow _ ha).2, ← (hrow _ hb).2]
      exact hy1 side w _ _ a b
    rw [← hL, ← hR, ← hc]
    exact ⟨hfail L' Prod.fst w "left" (Or.inl rfl) m1, hfail R' Prod.snd (-w) "right" (Or.inr rfl) n1⟩

/-! ## C105 -/

theorem Moved.hasBin {r r' : Record} {a : ℚ × ℚ} (h : Moved r r' a) (i i' : Info) (x y : ℚ) : HasBin ⟨r', i'⟩ x y ↔ HasBin ⟨r, i⟩ (x + a.1) (y + a.2) := by
  unfold HasBin
  simp only
  constructor
  · rintro ⟨t, ht, e1, e2⟩
    rw [h.size] at ht
    rw [h.x t ht] at e1
    rw [h.y t ht] at e2
    exact ⟨t, ht, by linarith, by linarith⟩
  · rintro ⟨t, ht, e1, e2⟩
    exact ⟨t, by rw [h.size]; exact ht, by rw [h.x t ht]; linarith, by rw [h.y t ht]; linarith⟩

theorem Moved.lattice {r r' : Record} {a : ℚ × ℚ} (h : Moved r r' a) {sp : ℚ × ℚ} {x0 y0 : ℚ} {nx ny : ℕ} (hl : Lattice r sp x0 y0 nx ny) :
    Lattice r' sp (x0 - a.1) (y0 - a.2) nx ny := by
  refine ⟨h.wf, hl.nxpos, hl.nypos, by rw [h.size, hl.size], by rw [h.names]; exact hl.hasX, by rw [h.names]; exact hl.hasY, ?_, ?_⟩
  · intro t ht
    have := hl.x t ht
    simp only at this ⊢
    rw [h.x t (by rw [hl.size]; exact ht), this]; ring
  · intro t ht
    have := hl.y t ht
    simp only at this ⊢
    rw [h.y t (by rw [hl.size]; exact ht), this]; ring

theorem Moved.trans {r r' r'' : Record} {a b : ℚ × ℚ} (h : Moved r r' a) (k : Moved r' r'' b) : Moved r r'' (a.1 + b.1, a.2 + b.2) := by
  refine ⟨k.wf, by rw [k.names, h.names], by rw [k.size, h.size], ?_, ?_, ?_⟩
  · intro t ht
    rw [k.x t (by rw [h.size]; exact ht), h.x t ht]; ring
  · intro t ht
    rw [k.y t (by rw [h.size]; exact ht), h.y t ht]; ring
  · intro l n1 n2 t ht
    rw [k.other l n1 n2 t (by rw [h.size]; exact ht), h.other l n1 n2 t ht]

/-- Moving along x. -/
theorem subX_moved {r : Record} (h : Wf r) (hx : "X" ∈ names r) (v : ℚ) : ∃ r', subCol r "X" v = .ok r' ∧ Moved r r' (v, 0) := by
  obtain ⟨r', e, w, n, s, hv⟩ := subCol_spec h hx v
  refine ⟨r', e, w, n, s, ?_, ?_, ?_⟩
  · intro t ht; rw [hv _ t ht, if_pos rfl]
  · intro t ht; rw [hv _ t ht, if_neg (by decide)]; ring
  · intro l n1 n2 t ht; rw [hv _ t ht, if_neg n1]

/-- Moving along y. -/
theorem subY_moved {r : Record} (h : Wf r) (hy : "Y" ∈ names r) (v : ℚ) : ∃ r', subCol r "Y" v = .ok r' ∧ Moved r r' (0, v) := by
  obtain ⟨r', e, w, n, s, hv⟩ := subCol_spec h hy v
  refine ⟨r', e, w, n, s, ?_, ?_, ?_⟩
  · intro t ht; rw [hv _ t ht, if_neg (by decide)]; ring
  · intro t ht; rw [hv _ t ht, if_pos rfl]
  · intro l n1 n2 t ht; rw [hv _ t ht, if_neg n2]

/-- The edges moved back. -/
theorem adjustCoordinates_moved (left right : Record) (hl : Wf left) (hr : Wf right) (hlx : "X" ∈ names left) (hly : "Y" ∈ names left) (hrx : "X" ∈ names right) (hry : "Y" ∈ names right)
    (xl xr dx yadj : ℚ) (recenter : Bool) :
    ∃ l r, adjustCoordinates left right (xl, xr) dx yadj recenter = .ok (l, r) ∧
      Moved left l (-coordOnGrid (if recenter then -(xr - xl) / 2 else xl) dx, -yadj) ∧ Moved right r (-coordOnGrid (if recenter then (xr - xl) / 2 else xr) dx, -yadj) := by
  have ea : (if recenter = true then (-(1 / 2 * (xr - xl)), 1 / 2 * (xr - xl)) else (xl, xr)) = ((if recenter then -(xr - xl) / 2 else xl), (if recenter then (xr - xl) / 2 else xr)) := by
    split
    · exact Prod.ext (by simp; ring) (by simp; ring)
    · rfl
  obtain ⟨l1, e1, w1⟩ := subX_moved hl hlx (-coordOnGrid (if recenter then -(xr - xl) / 2 else xl) dx)
  obtain ⟨l2, e2, w2⟩ := subY_moved w1.wf (by rw [w1.names]; exact hly) (-yadj)
  obtain ⟨r1, f1, x1⟩ := subX_moved hr hrx (-coordOnGrid (if recenter then (xr - xl) / 2 else xr) dx)
  obtain ⟨r2, f2, x2⟩ := subY_moved x1.wf (by rw [x1.names]; exact hry) (-yadj)
  refine ⟨l2, r2, ?_, by simpa using w1.trans w2, by simpa using x1.trans x2⟩
  unfold adjustCoordinates
  simp only [ea]
  rw [e1, Gmx.ok_bind, e2, Gmx.ok_bind, f1, Gmx.ok_bind, f2, Gmx.ok_bind]

/-- Fusing moves the edges. -/
theorem fuse_moved (left right : Record) (hl : Wf left) (hr : Wf right) (hlx : "X" ∈ names left) (hrx : "X" ∈ names right) (dx p q : ℚ)
    (hp : ∃ t, t < Flow.size left ∧ val left "X" t = p) (hp' : ∀ t, t < Flow.size left → val left "X" t ≤ p)
    (hq : ∃ t, t < Flow.size right ∧ val right "X" t = q) (hq' : ∀ t, t < Flow.size right → q ≤ val right "X" t) :
    ∃ l r, fuseEdges left right dx = .ok (l, r) ∧ Moved left l (p + dx / 2, 0) ∧ Moved right r (q - dx / 2, 0) := by
  obtain ⟨cl, hcl⟩ := (col?_isSome_iff left "X").mpr hlx
  obtain ⟨cr, hcr⟩ := (col?_isSome_iff right "X").mpr hrx
  have hfl : field left "X" = .ok cl := by unfold field; rw [hcl]
  have hfr : field right "X" = .ok cr := by unfold field; rw [hcr]
  obtain ⟨t, ht, et⟩ := hp
  obtain ⟨u, hu, eu⟩ := hq
  obtain ⟨m, hm, ⟨tl, htl, etl⟩, maxl⟩ := npMax_val hl hcl (by omega)
  obtain ⟨n, hn, ⟨tr, htr, etr⟩, minr⟩ := npMin_val hr hcr (by omega)
  have hmp : m = p := le_antisymm (etl ▸ hp' tl htl) (et ▸ maxl t ht)
  have hnq : n = q := le_antisymm (eu ▸ minr u hu) (etr ▸ hq' tr htr)
  obtain ⟨l, e1, w1⟩ := subX_moved hl hlx (p + dx / 2)
  obtain ⟨r, e2, w2⟩ := subX_moved hr hrx (q - dx / 2)
  refine ⟨l, r, ?_, w1, w2⟩
  unfold fuseEdges
  rw [hfl, Gmx.ok_bind, hm, Gmx.ok_bind, hfr, Gmx.ok_bind, hn, Gmx.ok_bind, hmp, hnq, show p + 1 / 2 * dx = p + dx / 2 by ring, show q - 1 / 2 * dx = q - dx / 2 by ring, e1, Gmx.ok_bind, e2, Gmx.ok_bind]

/-- **C105.** The map written for a group consists of the averaged edges: the left edge with its corner at the mean corner of the maps (or, recentred, half the mean distance of the corners left of 0),
rounded down to a multiple of the spacing, the right one accordingly, and heights counted from the lowest layer of each edge. Fused, the corners are in the neighbouring columns at `-dx` and 0, and no bin is in both
edges. A bin of one edge only keeps all values of that edge; bins in both are averaged, flow and temperature weighted. (Missing: as in C103 and C104.) -/
theorem C105_group_partial (huge : ℚ) (sp : ℚ × ℚ) (ls : List Label) (hx : 0 < sp.1) (hy : 0 < sp.2) (hxy : sp.1 ≤ 2 * sp.2) (hls : ∀ l ∈ ["U", "V", "T", "M", "N"], l ∈ ls)
    (recenter fuse : Bool) (left right : List Edge) (hln : left ≠ []) (hrn : right ≠ []) (hl : ∀ e ∈ left, GoodEdge sp ls e) (hr : ∀ e ∈ right, GoodEdge sp ls e)
    (cl cr : Edge → ℚ × ℚ) (hcl : ∀ e ∈ left, Corner "left" e (cl e)) (hcr : ∀ e ∈ right, Corner "right" e (cr e)) (ml mr pl pr : ℚ)
    (hml : ml = (left.map fun e => (cl e).1).sum / left.length) (hmr : mr = (right.map fun e => (cr e).1).sum / right.length)
    (hpl : pl = if fuse then -sp.1 else (⌊(if recenter then -(mr - ml) / 2 else ml) / sp.1⌋ : ℚ) * sp.1)
    (hpr : pr = if fuse then 0 else (⌊(if recenter then (mr - ml) / 2 else mr) / sp.1⌋ : ℚ) * sp.1) :
    ∃ aL aR out, edgeAverage huge "left" (left.map fun e => (e.cells, e.info)) = .ok (ml, aL) ∧ edgeAverage huge "right" (right.map fun e => (e.cells, e.info)) = .ok (mr, aR) ∧
      combinedGroup huge sp recenter fuse (left.map fun e => (e.cells, e.info)) (right.map fun e => (e.cells, e.info)) = .ok out ∧
      GridMap out sp ∧ names out.data = ls ∧
      (∀ x y, HasBin aL x y → HasBin out (x + pl) y) ∧ (∀ x y, HasBin aR x y → HasBin out (x + pr) y) ∧
      (fuse = true → ∀ x y, ¬ (HasBin aL (x - pl) y ∧ HasBin aR (x - pr) y)) ∧
      ∀ x y, HasBin out x y →
        (¬ HasBin aR (x - pr) y → ∀ l ∈ ls, l ≠ "X" → l ≠ "Y" → valueAt out.data l x y = valueAt aL.data l (x - pl) y) ∧
        (¬ HasBin aL (x - pl) y → ∀ l ∈ ls, l ≠ "X" → l ≠ "Y" → valueAt out.data l x y = valueAt aR.data l (x - pr) y) ∧
        (∀ l ∈ ls, l ∉ ["X", "Y", "U", "V", "T"] → valueAt aL.data l (x - pl) y ≠ 0 → valueAt aR.data l (x - pr) y ≠ 0 →
          valueAt out.data l x y = (valueAt aL.data l (x - pl) y + valueAt aR.data l (x - pr) y) / 2) ∧
        ∀ p ∈ [("U", "M"), ("V", "M"), ("T", "N")], valueAt aL.data p.1 (x - pl) y ≠ 0 → valueAt aR.data p.1 (x - pr) y ≠ 0 →
          valueAt aL.data p.2 (x - pl) y + valueAt aR.data p.2 (x - pr) y ≠ 0 → valueAt out.data p.1 x y =
            (valueAt aL.data p.2 (x - pl) y * valueAt aL.data p.1 (x - pl) y + valueAt aR.data p.2 (x - pr) y * valueAt aR.data p.1 (x - pr) y) /
              (valueAt aL.data p.2 (x - pl) y + valueAt aR.data p.2 (x - pr) y) := by
  obtain ⟨aL, hL1, ⟨xL, yL, nL, kL, gL1, gL2, gL3⟩, oL, nmL, -, ⟨⟨tL, htL, tLx, tLy⟩, sideL⟩, -⟩ := C104_edge_average_partial huge sp ls hx hy hxy hls "left" (Or.inl rfl) left hln hl cl hcl
  obtain ⟨aR, hR1, ⟨xR, yR, nR, kR, gR1, gR2, gR3⟩, oR, nmR, -, ⟨⟨tR, htR, tRx, tRy⟩, sideR⟩, -⟩ := C104_edge_average_partial huge sp ls hx hy hxy hls "right" (Or.inr rfl) right hrn hr cr hcr
  rw [← hml] at hL1
  rw [← hmr] at hR1
  obtain ⟨dL, dR, e1, mL, mR⟩ := adjustCoordinates_moved aL.data aR.data gL3.wf gR3.wf gL3.hasX gL3.hasY gR3.hasX gR3.hasY ml mr sp.1 (coordOnGrid 0 sp.2) recenter
  have hge : groupEdges huge sp recenter (left.map fun e => (e.cells, e.info)) (right.map fun e => (e.cells, e.info)) = .ok (⟨dL, aL.info⟩, ⟨dR, aR.info⟩) := by
    unfold groupEdges
    rw [hL1, Gmx.ok_bind, hR1, Gmx.ok_bind, e1, Gmx.ok_bind]
  have hy2 : coordOnGrid 0 sp.2 = sp.2 / 2 := by unfold coordOnGrid; simp; ring
  rw [hy2] at mL mR
  generalize hgl : (if recenter = true then -(mr - ml) / 2 else ml) = gl at *
  generalize hgr : (if recenter = true then (mr - ml) / 2 else mr) = gr at *
  -- after the optional fusion
  obtain ⟨fL, fR, e2, wL, wR⟩ : ∃ fL fR, maybeFuse fuse (⟨dL, aL.info⟩, ⟨dR, aR.info⟩) sp.1 = .ok (⟨fL, aL.info⟩, ⟨fR, aR.info⟩) ∧
      Moved aL.data fL (-(pl + sp.1 / 2), -(sp.2 / 2)) ∧ Moved aR.data fR (-(pr + sp.1 / 2), -(sp.2 / 2)) := by
    cases fuse with
    | false =>
      refine ⟨dL, dR, by unfold maybeFuse; simp, ?_, ?_⟩
      · rw [if_neg (by simp)] at hpl
        have : coordOnGrid gl sp.1 = pl + sp.1 / 2 := by rw [hpl]; unfold coordOnGrid; ring
        rw [← this]; exact mL
      · rw [if_neg (by simp)] at hpr
        have : coordOnGrid gr sp.1 = pr + sp.1 / 2 := by rw [hpr]; unfold coordOnGrid; ring
        rw [← this]; exact mR
    | true =>
      rw [if_pos rfl] at hpl hpr
      obtain ⟨fL, fR, e3, w1, w2⟩ := fuse_moved dL dR mL.wf mR.wf (by rw [mL.names]; exact gL3.hasX) (by rw [mR.names]; exact gR3.hasX) sp.1 (coordOnGrid gl sp.1) (coordOnGrid gr sp.1)
        ⟨tL, by rw [mL.size]; exact htL, by rw [mL.x tL htL, tLx]; simp⟩
        (by
          intro t ht
          rw [mL.size] at ht
          rw [mL.x t ht]
          have := (sideL _ _ ⟨t, ht, rfl, rfl⟩).2
          rw [if_pos rfl] at this
          simp only
          linarith)
        ⟨tR, by rw [mR.size]; exact htR, by rw [mR.x tR htR, tRx]; simp⟩
        (by
          intro t ht
          rw [mR.size] at ht
          rw [mR.x t ht]
          have := (sideR _ _ ⟨t, ht, rfl, rfl⟩).2
          rw [if_neg (by decide)] at this
          simp only
          linarith)
      refine ⟨fL, fR, by unfold maybeFuse; rw [if_pos rfl]; simp only; rw [e3, Gmx.ok_bind], ?_, ?_⟩
      · have := mL.trans w1
        have e : ((-coordOnGrid gl sp.1, -(sp.2 / 2)).1 + (coordOnGrid gl sp.1 + sp.1 / 2, (0 : ℚ)).1, (-coordOnGrid gl sp.1, -(sp.2 / 2)).2 + (coordOnGrid gl sp.1 + sp.1 / 2, (0 : ℚ)).2) =
            (-(pl + sp.1 / 2), -(sp.2 / 2)) := by
          rw [hpl]; exact Prod.ext (by simp only; ring) (by simp only; ring)
        rw [e] at this
        exact this
      · have := mR.trans w2
        have e : ((-coordOnGrid gr sp.1, -(sp.2 / 2)).1 + (coordOnGrid gr sp.1 - sp.1 / 2, (0 : ℚ)).1, (-coordOnGrid gr sp.1, -(sp.2 / 2)).2 + (coordOnGrid gr sp.1 - sp.1 / 2, (0 : ℚ)).2) =
            (-(pr + sp.1 / 2), -(sp.2 / 2)) := by
          rw [hpr]; exact Prod.ext (by simp only; ring) (by simp only; ring)
        rw [e] at this
        exact this
  have hpl' : ∃ k : ℤ, pl = sp.1 * k := by
    rw [hpl]; split
    · exact ⟨-1, by push_cast; ring⟩
    · exact ⟨_, mul_comm _ _⟩
  have hpr' : ∃ k : ℤ, pr = sp.1 * k := by
    rw [hpr]; split
    · exact ⟨0, by simp⟩
    · exact ⟨_, mul_comm _ _⟩
  have honL : ∀ {r f : Record} {p : ℚ}, (∃ k : ℤ, p = sp.1 * k) → OnLattice sp 0 0 r → Moved r f (-(p + sp.1 / 2), -(sp.2 / 2)) → OnLattice sp (sp.1 / 2) (sp.2 / 2) f := by
    intro r f p hp ho hm t ht
    rw [hm.size] at ht
    obtain ⟨⟨k1, h1⟩, ⟨k2, h2⟩⟩ := ho t ht
    obtain ⟨k, hk⟩ := hp
    simp only at h1 h2 ⊢
    rw [hm.x t ht, hm.y t ht, h1, h2]
    exact ⟨⟨k1 + k, by rw [hk]; push_cast; ring⟩, ⟨k2, by ring⟩⟩
  obtain ⟨out, x0, y0, nx, ny, c1, c2, c3, c4, c5, c6⟩ := C103_combined_partial ⟨fL, aL.info⟩ ⟨fR, aR.info⟩ sp (sp.1 / 2) (sp.2 / 2) ls hx hy
    (by
      intro f hf
      simp only [List.mem_cons, List.not_mem_nil, or_false] at hf
      rcases hf with rfl | rfl
      · exact ⟨⟨_, _, nL, kL, gL1, gL2, wL.lattice gL3⟩, honL hpl' oL wL, by rw [wL.names]; exact nmL⟩
      · exact ⟨⟨_, _, nR, kR, gR1, gR2, wR.lattice gR3⟩, honL hpr' oR wR, by rw [wR.names]; exact nmR⟩) hls
  have bL : ∀ x y, HasBin ⟨fL, aL.info⟩ (x + sp.1 / 2) (y + sp.2 / 2) ↔ HasBin aL (x - pl) y := by
    intro x y
    rw [wL.hasBin aL.info aL.info]
    rw [show x + sp.1 / 2 + (-(pl + sp.1 / 2), -(sp.2 / 2)).1 = x - pl by simp only; ring, show y + sp.2 / 2 + (-(pl + sp.1 / 2), -(sp.2 / 2)).2 = y by simp only; ring]
  have bR : ∀ x y, HasBin ⟨fR, aR.info⟩ (x + sp.1 / 2) (y + sp.2 / 2) ↔ HasBin aR (x - pr) y := by
    intro x y
    rw [wR.hasBin aR.info aR.info]
    rw [show x + sp.1 / 2 + (-(pr + sp.1 / 2), -(sp.2 / 2)).1 = x - pr by simp only; ring, show y + sp.2 / 2 + (-(pr + sp.1 / 2), -(sp.2 / 2)).2 = y by simp only; ring]
  have vL : ∀ l, l ≠ "X" → l ≠ "Y" → ∀ x y, valueAt fL l (x + sp.1 / 2) (y + sp.2 / 2) = valueAt aL.data l (x - pl) y := by
    intro l n1 n2 x y
    rw [wL.valueAt l n1 n2]
    rw [show x + sp.1 / 2 + (-(pl + sp.1 / 2), -(sp.2 / 2)).1 = x - pl by simp only; ring, show y + sp.2 / 2 + (-(pl + sp.1 / 2), -(sp.2 / 2)).2 = y by simp only; ring]
  have vR : ∀ l, l ≠ "X" → l ≠ "Y" → ∀ x y, valueAt fR l (x + sp.1 / 2) (y + sp.2 / 2) = valueAt aR.data l (x - pr) y := by
    intro l n1 n2 x y
    rw [wR.valueAt l n1 n2]
    rw [show x + sp.1 / 2 + (-(pr + sp.1 / 2), -(sp.2 / 2)).1 = x - pr by simp only; ring, show y + sp.2 / 2 + (-(pr + sp.1 / 2), -(sp.2 / 2)).2 = y by simp only; ring]
  have hsub : ∀ (f : Flow) (hf : f ∈ [(⟨fL, aL.info⟩ : Flow), ⟨fR, aR.info⟩]) (x y : ℚ), HasBin f (x + sp.1 / 2) (y + sp.2 / 2) → HasBin out x y := by
    rintro f hf x y ⟨s, hs, e1, e2⟩
    have := c5 f hf s hs
    rw [e1, e2, add_sub_cancel_right, add_sub_cancel_right] at this
    exact this
  refine ⟨aL, aR, out, hL1, hR1, ?_, ⟨x0, y0, nx, ny, by rw [c4], by rw [c4], c2⟩, c3, ?_, ?_, ?_, ?_⟩
  · unfold combinedGroup
    rw [hge, Gmx.ok_bind]
    simp only [gL2]
    rw [e2, Gmx.ok_bind]
    exact c1
  · intro x y hb
    apply hsub ⟨fL, aL.info⟩ (by simp)
    rw [bL, add_sub_cancel_right]
    exact hb
  · intro x y hb
    apply hsub ⟨fR, aR.info⟩ (by simp)
    rw [bR, add_sub_cancel_right]
    exact hb
  · rintro hfu x y ⟨h1, h2⟩
    rw [hfu, if_pos rfl] at hpl hpr
    have a := (sideL _ _ h1).2
    have b := (sideR _ _ h2).2
    rw [if_pos rfl] at a
    rw [if_neg (by decide)] at b
    linarith
  · rintro x y ⟨t, ht, rfl, rfl⟩
    have hfg := Lattice.fullGrid c2 hx hy
    have hat : ∀ l, valueAt out.data l (val out.data "X" t) (val out.data "Y" t) = val out.data l t := fun l => hfg.valueAt_row l ht
    rw [c2.size] at ht
    obtain ⟨q1, q2, q3, q4⟩ := c6 t ht _ _ rfl rfl
    rw [bR] at q1
    rw [bL] at q2
    refine ⟨?_, ?_, ?_, ?_⟩
    · intro hno l hl' n1 n2
      rw [hat, q1 hno l hl' n1 n2, vL l n1 n2]
    · intro hno l hl' n1 n2
      rw [hat, q2 hno l hl' n1 n2, vR l n1 n2]
    · intro l hl' hn z1 z2
      have hn' := hn
      simp only [List.mem_cons, List.not_mem_nil, or_false, not_or] at hn'
      obtain ⟨n1, n2, -⟩ := hn'
      have := q3 l hl' hn
      rw [vL l n1 n2, vR l n1 n2] at this
      rw [hat]
      exact this z1 z2
    · intro p hp z1 z2 hw
      have hp' : p.1 ≠ "X" ∧ p.1 ≠ "Y" ∧ p.2 ≠ "X" ∧ p.2 ≠ "Y" := by
        simp only [List.mem_cons, List.not_mem_nil, or_false] at hp
        rcases hp with rfl | rfl | rfl <;> decide
      have := q4 p hp
      rw [vL _ hp'.1 hp'.2.1, vR _ hp'.1 hp'.2.1, vL _ hp'.2.2.1 hp'.2.2.2, vR _ hp'.2.2.1 hp'.2.2.2] at this
      rw [hat]
      exact this z1 z2 hw

/-! ## Examples -/

/-- A map of 2 × 2 bins with its lower left bin at the given position. -/
def exMap (x y m : ℚ) : Record :=
  [("X", [x, x + 1, x, x + 1]), ("Y", [y, y, y + 1, y + 1]), ("U", [1, 2, 3, 4]), ("V", [0, 1, 0, 1]), ("T", [5, 5, 6, 6]), ("M", [m, 2, 1, 1]), ("N", [2, 2, 1, 1])]

/-- The edge consisting of all its bins. -/
def exEdge (x y m : ℚ) : Edge := ⟨exMap x y m, { spacing := some (1, 1) }, (x, x + 1), (y, y + 1)⟩

theorem exEdge_rows (x y m : ℚ) : (exEdge x y m).rows = [0, 1, 2, 3] := by
  unfold Edge.rows
  have h : Flow.size (exEdge x y m).map = 4 := rfl
  rw [h]
  have : ∀ t ∈ List.range 4, decide ((exEdge x y m).InBox (val (exEdge x y m).map "X" t) (val (exEdge x y m).map "Y" t)) = true := by
    intro t ht
    have ht' : t < 4 := List.mem_range.mp ht
    rw [decide_eq_true_iff]
    interval_cases t <;> simp [exEdge, exMap, Edge.InBox, val, col?, List.lookup]
  rw [List.filter_eq_self.mpr this]
  rfl

theorem exEdge_good (x y m : ℚ) : GoodEdge (1, 1) ["X", "Y", "U", "V", "T", "M", "N"] (exEdge x y m) := by
  refine ⟨⟨x, y, 2, 2, Lattice.fullGrid (nx := 2) (ny := 2) ⟨⟨by simp [exEdge, exMap, names], ?_⟩, by decide, by decide, rfl, by simp [exEdge, exMap, names], by simp [exEdge, exMap, names], ?_, ?_⟩ (by norm_num) (by norm_num)⟩, rfl, rfl, ?_⟩
  · intro c hc
    simp only [exEdge, exMap, List.mem_cons, List.not_mem_nil, or_false] at hc
    rcases hc with rfl | rfl | rfl | rfl | rfl | rfl | rfl <;> rfl
  · intro t ht
    have ht' : t < 4 := ht
    interval_cases t <;> simp [exEdge, exMap, val, col?, List.lookup]
  · intro t ht
    have ht' : t < 4 := ht
    interval_cases t <;> simp [exEdge, exMap, val, col?, List.lookup]
  · rw [exEdge_rows]
    exact ⟨0, by simp, 2, by simp, by simp [exEdge, exMap, val, col?, List.lookup]⟩

theorem exEdge_corner_left (x y m : ℚ) : Corner "left" (exEdge x y m) (x + 1, y) := by
  refine ⟨⟨1, by rw [exEdge_rows]; simp, rfl⟩, ⟨0, by rw [exEdge_rows]; simp, rfl⟩, ?_, ?_⟩
  · rw [exEdge_rows]
    intro t ht
    simp only [List.mem_cons, List.not_mem_nil, or_false] at ht
    rw [if_pos rfl]
    rcases ht with rfl | rfl | rfl | rfl <;> simp [exEdge, exMap, val, col?, List.lookup]
  · rw [exEdge_rows]
    intro t ht
    simp only [List.mem_cons, List.not_mem_nil, or_false] at ht
    rcases ht with rfl | rfl | rfl | rfl <;> simp [exEdge, exMap, val, col?, List.lookup]

theorem exEdge_corner_right (x y m : ℚ) : Corner "right" (exEdge x y m) (x, y) := by
  refine ⟨⟨0, by rw [exEdge_rows]; simp, rfl⟩, ⟨0, by rw [exEdge_rows]; simp, rfl⟩, ?_, ?_⟩
  · rw [exEdge_rows]
    intro t ht
    simp only [List.mem_cons, List.not_mem_nil, or_false] at ht
    rw [if_neg (by decide)]
    rcases ht with rfl | rfl | rfl | rfl <;> simp [exEdge, exMap, val, col?, List.lookup]
  · rw [exEdge_rows]
    intro t ht
    simp only [List.mem_cons, List.not_mem_nil, or_false] at ht
    rcases ht with rfl | rfl | rfl | rfl <;> simp [exEdge, exMap, val, col?, List.lookup]

/-- The corners of the example edges for the left side. -/
def exCornerL (e : Edge) : ℚ × ℚ := (e.xlim.2, e.ylim.1)
/-- The corners of the example edges for the right side. -/
def exCornerR (e : Edge) : ℚ × ℚ := (e.xlim.1, e.ylim.1)

/-- Two maps with droplets at different places meet the hypotheses of C104. -/
example : ∀ e ∈ [exEdge 0 3 2, exEdge 1 5 4], GoodEdge (1, 1) ["X", "Y", "U", "V", "T", "M", "N"] e ∧ Corner "left" e (exCornerL e) := by
  intro e he
  simp only [List.mem_cons, List.not_mem_nil, or_false] at he
  rcases he with rfl | rfl
  · exact ⟨exEdge_good _ _ _, exEdge_corner_left _ _ _⟩
  · exact ⟨exEdge_good _ _ _, exEdge_corner_left _ _ _⟩

/-- Their average: the corners are averaged to 3/2. -/
example : edgeAverage 1000 "left" ([exEdge 0 3 2, exEdge 1 5 4].map fun e => (e.cells, e.info)) =
    .ok (3 / 2, ⟨[("X", [-1, 0, -1, 0]), ("Y", [0, 0, 1, 1]), ("U", [1, 2, 3, 4]), ("V", [0, 1, 0, 1]), ("T", [5, 5, 6, 6]), ("M", [3, 2, 1, 1]), ("N", [2, 2, 1, 1])],
      { shape := some (2, 2), origin := some (-1, 0), spacing := some (1, 1), numBins := some 4 }⟩) := by decide +kernel

/-- C105 for left edges around x = 1 and right edges around x = 8: not fused, the corners are at 1 and 8. -/
example : ∃ aL aR out, edgeAverage 1000 "left" ([exEdge 0 3 2, exEdge 1 5 4].map fun e => (e.cells, e.info)) = .ok (3 / 2, aL) ∧
    edgeAverage 1000 "right" ([exEdge 8 3 2, exEdge 9 5 4].map fun e => (e.cells, e.info)) = .ok (17 / 2, aR) ∧
    combinedGroup 1000 (1, 1) false false ([exEdge 0 3 2, exEdge 1 5 4].map fun e => (e.cells, e.info)) ([exEdge 8 3 2, exEdge 9 5 4].map fun e => (e.cells, e.info)) = .ok out ∧
    (∀ x y, HasBin aL x y → HasBin out (x + 1) y) ∧ ∀ x y, HasBin aR x y → HasBin out (x + 8) y := by
  obtain ⟨aL, aR, out, h1, h2, h3, -, -, h6, h7, -⟩ := C105_group_partial 1000 (1, 1) ["X", "Y", "U", "V", "T", "M", "N"] (by norm_num) (by norm_num) (by norm_num) (by decide) false false
    [exEdge 0 3 2, exEdge 1 5 4] [exEdge 8 3 2, exEdge 9 5 4] (by simp) (by simp)
    (by intro e he; simp only [List.mem_cons, List.not_mem_nil, or_false] at he; rcases he with rfl | rfl <;> exact exEdge_good _ _ _)
    (by intro e he; simp only [List.mem_cons, List.not_mem_nil, or_false] at he; rcases he with rfl | rfl <;> exact exEdge_good _ _ _)
    exCornerL exCornerR
    (by intro e he; simp only [List.mem_cons, List.not_mem_nil, or_false] at he; rcases he with rfl | rfl <;> exact exEdge_corner_left _ _ _)
    (by intro e he; simp only [List.mem_cons, List.not_mem_nil, or_false] at he; rcases he with rfl | rfl <;> exact exEdge_corner_right _ _ _)
    (3 / 2) (17 / 2) 1 8 (by decide +kernel) (by decide +kernel) (by decide +kernel) (by decide +kernel)
  exact ⟨aL, aR, out, h1, h2, h3, h6, h7⟩

/-- The same fused: neighbouring columns. -/
example : combinedGroup 1000 (1, 1) false true ([exEdge 0 3 2].map fun e => (e.cells, e.info)) ([exEdge 8 3 2].map fun e => (e.cells, e.info)) =
    .ok ⟨[("X", [-2, -1, 0, 1, -2, -1, 0, 1]), ("Y", [0, 0, 0, 0, 1, 1, 1, 1]), ("U", [1, 2, 1, 2, 3, 4, 3, 4]), ("V", [0, 1, 0, 1, 0, 1, 0, 1]), ("T", [5, 5, 5, 5, 6, 6, 6, 6]),
      ("M", [2, 2, 2, 2, 1, 1, 1, 1]), ("N", [2, 2, 2, 2, 1, 1, 1, 1])], { shape := some (4, 2), spacing := some (1, 1) }⟩ := by decide +kernel

/-- An edge with only the lowest layer fails, and with it the whole group. -/
example : edgeAverage 1000 "left" ([exEdge 0 3 2, { exEdge 1 5 4 with ylim := (5, 5) }].map fun e => (e.cells, e.info)) = .error .indexError ∧
    (exEdge 0 3 2).cells = exMap 0 3 2 := by
  constructor <;> decide +kernel

/-- A droplet of two layers for the extraction: with the default area one layer is taken and the average fails, with a height of 1 it does not. -/
def exDrop : Record :=
  [("X", [0, 1, 2, 3, 0, 1, 2, 3]), ("Y", [0, 0, 0, 0, 1, 1, 1, 1]), ("U", [1, 2, 1, 2, 3, 4, 3, 4]), ("V", [0, 1, 0, 1, 0, 1, 0, 1]), ("T", [5, 5, 5, 5, 6, 6, 6, 6]),
    ("M", [2, 2, 2, 2, 2, 2, 2, 2]), ("N", [2, 2, 2, 2, 1, 1, 1, 1])]

example : (mapEdges exDrop { cutoff := some 1, radius := some 1, bins := 1 } (1, 0)).map (fun e => (addAdjusted e.1 "left" { spacing := some (1, 1) }).isOk) = .ok false ∧
    (mapEdges exDrop { cutoff := some 1, radius := some 1, bins := 1 } (1, 1)).map (fun e => (addAdjusted e.1 "left" { spacing := some (1, 1) }).isOk) = .ok true := by
  constructor <;> decide +kernel

end Strata.ContactLine
