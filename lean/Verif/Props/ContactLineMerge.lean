import Verif.Proofs.ContactLineMerge
/-!
# Combined contact line edges: C103
-/
namespace Strata.ContactLine
open Strata Strata.Flow Strata.Average

/-- The map has a bin at this position. -/
def HasBin (f : Flow) (x y : ℚ) : Prop := ∃ s, s < Flow.size f.data ∧ val f.data "X" s = x ∧ val f.data "Y" s = y

theorem valueAt_none (f : Flow) (l : Label) (x y : ℚ) (h : ¬ HasBin f x y) : valueAt f.data l x y = 0 := by
  unfold valueAt
  rw [List.find?_eq_none.mpr]
  · rfl
  · intro t ht
    simp only [decide_eq_true_eq]
    intro hxy
    exact h ⟨t, List.mem_range.mp ht, hxy⟩

/-- What is put into a bin of the combination, field by field. -/
theorem combineFlow_spec (left right : Flow) (sp : ℚ × ℚ) (ox oy : ℚ) (ls : List Label) (hx : 0 < sp.1) (hy : 0 < sp.2)
    (hm : ∀ f ∈ [left, right], GridMap f sp ∧ OnLattice sp ox oy f.data ∧ names f.data = ls) (hls : ∀ l ∈ ["U", "V", "T", "M", "N"], l ∈ ls) :
    ∃ out x0 y0, ∃ nx ny : ℕ, combineFlow left right sp = .ok out ∧ Lattice out.data sp (x0 - 1 / 2 * sp.1) (y0 - 1 / 2 * sp.2) nx ny ∧ names out.data = ls ∧
      out.info = { shape := some ((nx : ℤ), (ny : ℤ)), spacing := some sp } ∧
      (∀ f ∈ [left, right], ∀ s, s < Flow.size f.data → ∃ t, t < nx * ny ∧ val out.data "X" t + 1 / 2 * sp.1 = val f.data "X" s ∧ val out.data "Y" t + 1 / 2 * sp.2 = val f.data "Y" s) ∧
      ∀ l ∈ ls, l ≠ "X" → l ≠ "Y" → ∀ t, t < nx * ny → val out.data l t =
        mergeValue ((edgeWeights.lookup l).map fun w => (valueAt left.data w (val out.data "X" t + 1 / 2 * sp.1) (val out.data "Y" t + 1 / 2 * sp.2),
            valueAt right.data w (val out.data "X" t + 1 / 2 * sp.1) (val out.data "Y" t + 1 / 2 * sp.2))) 0
          (valueAt left.data l (val out.data "X" t + 1 / 2 * sp.1) (val out.data "Y" t + 1 / 2 * sp.2))
          (valueAt right.data l (val out.data "X" t + 1 / 2 * sp.1) (val out.data "Y" t + 1 / 2 * sp.2)) := by
  obtain ⟨g, xg, yg, hgr, hgl, hgls, hgz, hcov, htr⟩ := maps_on_grid [left, right] sp ox oy ls (by simp) hx hy hm
  obtain ⟨l, hl1, hl2, hl3, hl4⟩ := htr left (by simp)
  obtain ⟨r, hr1, hr2, hr3, hr4⟩ := htr right (by simp)
  have hw : ∀ p ∈ edgeWeights, p.1 ∈ ls ∧ p.2 ∈ ls := by
    intro p hp
    simp only [edgeWeights, List.mem_cons, List.not_mem_nil, or_false] at hp
    rcases hp with rfl | rfl | rfl <;> exact ⟨hls _ (by decide), hls _ (by decide)⟩
  have hwn : ∀ l w, edgeWeights.lookup l = some w → w ≠ "X" ∧ w ≠ "Y" := by
    intro l w h
    have := lookup_mem h
    simp only [edgeWeights, List.mem_cons, List.not_mem_nil, or_false, Prod.mk.injEq] at this
    rcases this with ⟨-, rfl⟩ | ⟨-, rfl⟩ | ⟨-, rfl⟩ <;> decide
  obtain ⟨m, hm1, hm2, hm3, hm4, hm5⟩ := mergeData_spec g.data l r hgl.wf (by rw [hl2]; exact hw) (by rw [hr2]; exact hw)
  have hXls : "X" ∈ ls := by rw [← hgls]; exact hgl.hasX
  have hYls : "Y" ∈ ls := by rw [← hgls]; exact hgl.hasY
  have hgne : g.data ≠ [] := by intro h; rw [h] at hgls; rw [← hgls] at hXls; simp [names] at hXls
  have hms := hm4 hgne
  have hgsz := hgl.size
  obtain ⟨m', hs1, hs2, hs3, hs4, hs5⟩ := subCol_spec hm2 (l := "X") (by rw [hm3]; exact hgl.hasX) (1 / 2 * sp.1)
  obtain ⟨m'', hu1, hu2, hu3, hu4, hu5⟩ := subCol_spec hs2 (l := "Y") (by rw [hs3, hm3]; exact hgl.hasY) (1 / 2 * sp.2)
  have hval : ∀ lab ∈ ls, ∀ t, t < g.nx * g.ny → val m'' lab t = val m lab t - (if lab = "X" then 1 / 2 * sp.1 else 0) - if lab = "Y" then 1 / 2 * sp.2 else 0 := by
    intro lab _ t ht
    rw [hu5 lab t (by rw [hs4, hms, hgsz]; exact ht)]
    have e := hs5 lab t (by rw [hms, hgsz]; exact ht)
    have eY := hs5 "Y" t (by rw [hms, hgsz]; exact ht)
    by_cases hY : lab = "Y"
    · subst hY
      rw [if_pos rfl, if_neg (by decide), if_pos rfl, eY, if_neg (by decide)]
      ring
    · rw [if_neg hY, e, if_neg hY]
      by_cases hX : lab = "X"
      · subst hX; rw [if_pos rfl, if_pos rfl]; ring
      · rw [if_neg hX, if_neg hX]; ring
  -- coordinates are those of the grid
  have hcoord : ∀ lab, (lab = "X" ∨ lab = "Y") → ∀ t, t < g.nx * g.ny → val m lab t = val g.data lab t := by
    intro lab hlab t ht
    have hin : lab ∈ names g.data := by rcases hlab with rfl | rfl; exact hgl.hasX; exact hgl.hasY
    rw [hm5 lab hin t (by rw [hgsz]; exact ht)]
    have hno : edgeWeights.lookup lab = none := by rcases hlab with rfl | rfl <;> decide
    have el : val l lab t = val g.data lab t := by
      rcases hlab with rfl | rfl
      · have a := hl3.x t ht; have b := hgl.x t ht; simp only at a b; rw [a, b]
      · have a := hl3.y t ht; have b := hgl.y t ht; simp only at a b; rw [a, b]
    have er : val r lab t = val g.data lab t := by
      rcases hlab with rfl | rfl
      · have a := hr3.x t ht; have b := hgl.x t ht; simp only at a b; rw [a, b]
      · have a := hr3.y t ht; have b := hgl.y t ht; simp only at a b; rw [a, b]
    rw [hno, el, er]
    unfold mergeValue
    simp only [Option.map_none]
    split_ifs with h1
    · ring
    · rfl
    · rfl
  have hX : ∀ t, t < g.nx * g.ny → val m'' "X" t + 1 / 2 * sp.1 = val g.data "X" t := by
    intro t ht
    rw [hval "X" hXls t ht, if_pos rfl, if_neg (by decide), hcoord "X" (.inl rfl) t ht]
    ring
  have hY : ∀ t, t < g.nx * g.ny → val m'' "Y" t + 1 / 2 * sp.2 = val g.data "Y" t := by
    intro t ht
    rw [hval "Y" hYls t ht, if_neg (by decide), if_pos rfl, hcoord "Y" (.inr rfl) t ht]
    ring
  have hnames : names m'' = ls := by rw [hu3, hs3, hm3, hgls]
  have hsz : Flow.size m'' = g.nx * g.ny := by rw [hu4, hs4, hms, hgsz]
  refine ⟨⟨m'', { shape := some ((g.nx : ℤ), (g.ny : ℤ)), spacing := some sp }⟩, xg, yg, g.nx, g.ny, ?_, ?_, hnames, rfl, ?_, ?_⟩
  · unfold combineFlow
    have hgr' : getCombinedGrid [left.data, right.data] sp = .ok g := hgr
    rw [hgr', Gmx.ok_bind, hl1, Gmx.ok_bind, hr1, Gmx.ok_bind, hm1, Gmx.ok_bind, hs1, Gmx.ok_bind, hu1, Gmx.ok_bind]
    unfold mk
    rw [setData_of_wf _ _ (collate_asArgs _) (by intro h; rw [h] at hnames; rw [← hnames] at hXls; simp [names] at hXls) hu2, Gmx.ok_bind]
    have h1 : pyInt (g.nx : ℚ) = g.nx := by exact_mod_cast pyInt_intCast g.nx
    have h2 : pyInt (g.ny : ℚ) = g.ny := by exact_mod_cast pyInt_intCast g.ny
    simp [setInfo, pairVal, List.lookup_cons, setPair, setNum, bind, Except.bind, h1, h2]
  · refine ⟨hu2, hgl.nxpos, hgl.nypos, hsz, by rw [hnames]; exact hXls, by rw [hnames]; exact hYls, ?_, ?_⟩
    · intro t ht
      have a := hX t ht
      have b := hgl.x t ht
      simp only at b ⊢
      linarith
    · intro t ht
      have a := hY t ht
      have b := hgl.y t ht
      simp only at b ⊢
      linarith
  · intro f hf s hs
    obtain ⟨i, j, hi, hj, e1, e2⟩ := hcov f hf s hs
    have hrow := hgl.row hi hj
    simp only at hrow
    refine ⟨j * g.nx + i, grid_lt hi hj, ?_, ?_⟩
    · simp only; rw [hX _ (grid_lt hi hj), hrow.1, e1]
    · simp only; rw [hY _ (grid_lt hi hj), hrow.2, e2]
  · intro lab hlab hnx hny t ht
    simp only
    rw [hval lab hlab t ht, if_neg hnx, if_neg hny, hX t ht, hY t ht, hm5 lab (by rw [hgls]; exact hlab) t (by rw [hgsz]; exact ht), hgz lab hnx hny t,
      hl4 lab hnx hny t ht, hr4 lab hnx hny t ht, sub_zero, sub_zero]
    congr 1
    cases hk : edgeWeights.lookup lab with
    | none => rfl
    | some w =>
      obtain ⟨w1, w2⟩ := hwn lab w hk
      simp only [Option.map_some]
      rw [hl4 w w1 w2 t ht, hr4 w w1 w2 t ht]

theorem mergeValue_left (w : Option (ℚ × ℚ)) (a : ℚ) : mergeValue w 0 a 0 = a := by
  unfold mergeValue
  by_cases h : a = 0 <;> simp [h]

theorem mergeValue_right (w : Option (ℚ × ℚ)) (b : ℚ) : mergeValue w 0 0 b = b := by
  unfold mergeValue
  by_cases h : b = 0 <;> simp [h]

/-- **C103.** Two edges on a common lattice are combined to a full grid with all their bins, moved by half a bin: a bin of only one of the edges keeps all its values; where both edges have values, fields are
averaged, flow and temperature weighted by mass and number. (Missing: bins in which one of the edges has the value zero, see `C103_zero_counterexample`.) -/
theorem C103_combined_partial (left right : Flow) (sp : ℚ × ℚ) (ox oy : ℚ) (ls : List Label) (hx : 0 < sp.1) (hy : 0 < sp.2)
    (hm : ∀ f ∈ [left, right], GridMap f sp ∧ OnLattice sp ox oy f.data ∧ names f.data = ls) (hls : ∀ l ∈ ["U", "V", "T", "M", "N"], l ∈ ls) :
    ∃ out x0 y0, ∃ nx ny : ℕ, combineFlow left right sp = .ok out ∧ Lattice out.data sp x0 y0 nx ny ∧ names out.data = ls ∧
      out.info = { shape := some ((nx : ℤ), (ny : ℤ)), spacing := some sp } ∧
      (∀ f ∈ [left, right], ∀ s, s < Flow.size f.data → HasBin out (val f.data "X" s - sp.1 / 2) (val f.data "Y" s - sp.2 / 2)) ∧
      ∀ t, t < nx * ny → ∀ x y, x = val out.data "X" t + sp.1 / 2 → y = val out.data "Y" t + sp.2 / 2 →
        (¬ HasBin right x y → ∀ l ∈ ls, l ≠ "X" → l ≠ "Y" → val out.data l t = valueAt left.data l x y) ∧
        (¬ HasBin left x y → ∀ l ∈ ls, l ≠ "X" → l ≠ "Y" → val out.data l t = valueAt right.data l x y) ∧
        (∀ l ∈ ls, l ∉ ["X", "Y", "U", "V", "T"] → valueAt left.data l x y ≠ 0 → valueAt right.data l x y ≠ 0 →
          val out.data l t = (valueAt left.data l x y + valueAt right.data l x y) / 2) ∧
        ∀ p ∈ [("U", "M"), ("V", "M"), ("T", "N")], valueAt left.data p.1 x y ≠ 0 → valueAt right.data p.1 x y ≠ 0 → valueAt left.data p.2 x y + valueAt right.data p.2 x y ≠ 0 →
          val out.data p.1 t = (valueAt left.data p.2 x y * valueAt left.data p.1 x y + valueAt right.data p.2 x y * valueAt right.data p.1 x y) /
            (valueAt left.data p.2 x y + valueAt right.data p.2 x y) := by
  obtain ⟨out, x0, y0, nx, ny, h1, h2, h3, h4, h5, h6⟩ := combineFlow_spec left right sp ox oy ls hx hy hm hls
  refine ⟨out, _, _, nx, ny, h1, h2, h3, h4, ?_, ?_⟩
  · intro f hf s hs
    obtain ⟨t, ht, e1, e2⟩ := h5 f hf s hs
    exact ⟨t, by rw [h2.size]; exact ht, by rw [← e1]; ring, by rw [← e2]; ring⟩
  · intro t ht x y ex ey
    have ex' : val out.data "X" t + 1 / 2 * sp.1 = x := by rw [ex]; ring
    have ey' : val out.data "Y" t + 1 / 2 * sp.2 = y := by rw [ey]; ring
    refine ⟨?_, ?_, ?_, ?_⟩
    · intro hno l hl n1 n2
      rw [h6 l hl n1 n2 t ht, ex', ey', valueAt_none right l x y hno, mergeValue_left]
    · intro hno l hl n1 n2
      rw [h6 l hl n1 n2 t ht, ex', ey', valueAt_none left l x y hno, mergeValue_right]
    · intro l hl hn hz1 hz2
      simp only [List.mem_cons, List.not_mem_nil, or_false, not_or] at hn
      obtain ⟨n1, n2, n3, n4, n5⟩ := hn
      rw [h6 l hl n1 n2 t ht, ex', ey']
      have : edgeWeights.lookup l = none := by
        rw [List.lookup_eq_none_iff]
        intro p hp
        simp only [edgeWeights, List.mem_cons, List.not_mem_nil, or_false] at hp
        rcases hp with rfl | rfl | rfl <;> simpa using ‹_›
      rw [this]
      unfold mergeValue
      rw [if_pos ⟨hz1, hz2⟩]
      simp only [Option.map_none]
      ring
    · intro p hp hz1 hz2 hw
      have hp' : edgeWeights.lookup p.1 = some p.2 ∧ p.1 ∈ ls ∧ p.1 ≠ "X" ∧ p.1 ≠ "Y" := by
        simp only [List.mem_cons, List.not_mem_nil, or_false] at hp
        rcases hp with rfl | rfl | rfl <;> exact ⟨by decide, hls _ (by decide), by decide, by decide⟩
      obtain ⟨hk, hl, n1, n2⟩ := hp'
      rw [h6 p.1 hl n1 n2 t ht, ex', ey', hk]
      unfold mergeValue
      rw [if_pos ⟨hz1, hz2⟩]
      simp only [Option.map_some]
      rw [if_pos hw]

/-- **C103, counterexample: zeros.** Zero is taken for a missing value: if a shared bin has mass (or another unweighted field) in one edge only, the combination has that value, not the mean, and if the liquid of one
edge is at rest there, the combination has the flow of the other edge, however little mass it has. -/
theorem C103_zero_counterexample (left right : Flow) (sp : ℚ × ℚ) (ox oy : ℚ) (ls : List Label) (hx : 0 < sp.1) (hy : 0 < sp.2)
    (hm : ∀ f ∈ [left, right], GridMap f sp ∧ OnLattice sp ox oy f.data ∧ names f.data = ls) (hls : ∀ l ∈ ["U", "V", "T", "M", "N"], l ∈ ls) :
    ∃ out, combineFlow left right sp = .ok out ∧ ∀ t, t < Flow.size out.data → ∀ x y, x = val out.data "X" t + sp.1 / 2 → y = val out.data "Y" t + sp.2 / 2 →
      ∀ l ∈ ls, l ≠ "X" → l ≠ "Y" → valueAt left.data l x y = 0 → valueAt right.data l x y ≠ 0 → val out.data l t = valueAt right.data l x y ∧
        val out.data l t ≠ (valueAt left.data l x y + valueAt right.data l x y) / 2 ∧
        ∀ wl wr : ℚ, 0 < wl → 0 < wr → val out.data l t ≠ (wl * valueAt left.data l x y + wr * valueAt right.data l x y) / (wl + wr) := by
  obtain ⟨out, x0, y0, nx, ny, h1, h2, h3, h4, h5, h6⟩ := combineFlow_spec left right sp ox oy ls hx hy hm hls
  refine ⟨out, h1, ?_⟩
  intro t ht x y ex ey l hl n1 n2 hz hnz
  have e : val out.data l t = valueAt right.data l x y := by
    rw [h6 l hl n1 n2 t (by rw [← h2.size]; exact ht), show val out.data "X" t + 1 / 2 * sp.1 = x by rw [ex]; ring, show val out.data "Y" t + 1 / 2 * sp.2 = y by rw [ey]; ring, hz, mergeValue_right]
  rw [e, hz]
  refine ⟨rfl, ?_, ?_⟩
  · intro h
    apply hnz
    linarith
  · intro wl wr hwl hwr h
    rw [eq_div_iff (by linarith), mul_zero, zero_add] at h
    have : wl * valueAt right.data l x y = 0 := by linarith
    rcases mul_eq_zero.mp this with h0 | h0
    · linarith
    · exact hnz h0

/-- Two edges sharing the bin at (2, 3), in which the liquid of the left one is at rest. -/
def exL : Flow := ⟨[("X", [1, 2]), ("Y", [3, 3]), ("U", [1, 0]), ("V", [1, 2]), ("T", [1, 1]), ("M", [4, 6]), ("N", [1, 1])], { shape := some (2, 1), spacing := some (1, 2) }⟩
def exR : Flow := ⟨[("X", [2, 2]), ("Y", [3, 5]), ("U", [3, 1]), ("V", [4, 2]), ("T", [2, 1]), ("M", [2, 6]), ("N", [3, 1])], { shape := some (1, 2), spacing := some (1, 2) }⟩

/-- They meet the hypotheses. -/
theorem exLR_hyp : ∀ f ∈ [exL, exR], GridMap f (1, 2) ∧ OnLattice (1, 2) 1 3 f.data ∧ names f.data = ["X", "Y", "U", "V", "T", "M", "N"] := by
  intro f hf
  simp only [List.mem_cons, List.not_mem_nil, or_false] at hf
  rcases hf with rfl | rfl
  · refine ⟨⟨1, 3, 2, 1, rfl, rfl, ⟨by decide, by decide +kernel⟩, by decide, by decide, rfl, by decide, by decide, ?_, ?_⟩, ?_, rfl⟩
    · intro t ht; have : t = 0 ∨ t = 1 := by omega
      rcases this with rfl | rfl <;> decide +kernel
    · intro t ht; have : t = 0 ∨ t = 1 := by omega
      rcases this with rfl | rfl <;> decide +kernel
    · intro t ht
      have : Flow.size exL.data = 2 := rfl
      have : t = 0 ∨ t = 1 := by omega
      rcases this with rfl | rfl
      · exact ⟨⟨0, by decide +kernel⟩, ⟨0, by decide +kernel⟩⟩
      · exact ⟨⟨1, by decide +kernel⟩, ⟨0, by decide +kernel⟩⟩
  · refine ⟨⟨2, 3, 1, 2, rfl, rfl, ⟨by decide, by decide +kernel⟩, by decide, by decide, rfl, by decide, by decide, ?_, ?_⟩, ?_, rfl⟩
    · intro t ht; have : t = 0 ∨ t = 1 := by omega
      rcases this with rfl | rfl <;> decide +kernel
    · intro t ht; have : t = 0 ∨ t = 1 := by omega
      rcases this with rfl | rfl <;> decide +kernel
    · intro t ht
      have : Flow.size exR.data = 2 := rfl
      have : t = 0 ∨ t = 1 := by omega
      rcases this with rfl | rfl
      · exact ⟨⟨1, by decide +kernel⟩, ⟨0, by decide +kernel⟩⟩
      · exact ⟨⟨1, by decide +kernel⟩, ⟨1, by decide +kernel⟩⟩

/-- Their combination: the flow U of the shared second bin is 3, with the masses it would be 3/4. -/
example : combineFlow exL exR (1, 2) = .ok ⟨[("X", [1 / 2, 3 / 2, 1 / 2, 3 / 2]), ("Y", [2, 2, 4, 4]), ("U", [1, 3, 0, 1]), ("V", [1, 5 / 2, 0, 2]), ("T", [1, 7 / 4, 0, 1]),
    ("M", [4, 4, 0, 6]), ("N", [1, 2, 0, 1])], { shape := some (2, 2), spacing := some (1, 2) }⟩ := by decide +kernel

end Strata.ContactLine
