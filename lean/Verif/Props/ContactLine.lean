import Verif.Proofs.ContactLine
import Verif.Proofs.SimpleAverage
import Verif.Proofs.GmxRead
/-!
# Contact line extraction: C38, C39, C69, C70, C79, C80, C81, C82
-/
namespace Strata.ContactLine
open Strata Strata.Flow Strata.Average Strata.Interface Strata.Gmx Strata.SimpleAverage

/-! ## C38 -/

/-- **C38, the cells.** With the interface `pts` of `get_interface`, the left and right cells are exactly the bins in the closed
boxes spanned by the interface bins up to the height of the area and the position one width inwards; each bin once, in
the order of the data. -/
theorem C38_cells_are_the_box (s : System) (box : Option (ℚ × ℚ)) (o : Opts) (w h eh : ℚ) (pts : List (ℕ × ℕ)) (hp : getInterface s box o = .ok pts) :
    ∃ L R, contactLineCells s box o (w, h) eh = .ok (L, R) ∧ L.Pairwise (· < ·) ∧ R.Pairwise (· < ·) ∧
      (∀ t, t ∈ L ↔ InBox s pts Prod.fst w h eh t) ∧ ∀ t, t ∈ R ↔ InBox s pts Prod.snd (-w) h eh t := by
  have hl := getInterface_layers hp
  have hs : ∀ (inds : List ℕ) (b : Bool), (cellsOfEdge s inds b w eh).Pairwise (· < ·) := by
    intro inds b
    unfold cellsOfEdge
    cases inds with
    | nil => exact List.Pairwise.nil
    | cons a rest => exact List.pairwise_lt_range.filter _
  refine ⟨_, _, by unfold contactLineCells; rw [hp, ok_bind], hs _ _, hs _ _, ?_, ?_⟩
  · intro t
    have := mem_cellsOfEdge hl Prod.fst (fun _ _ => rfl) true w h eh t
    simpa using this
  · intro t
    have := mem_cellsOfEdge hl Prod.snd hl.same false w h eh t
    simpa using this

/-- **C38, errors.** An error of the interface search is passed on; without an interface there are no cells. -/
theorem C38_errors (s : System) (box : Option (ℚ × ℚ)) (o : Opts) (area : ℚ × ℚ) (eh : ℚ) :
    (∀ e, getInterface s box o = .error e → contactLineCells s box o area eh = .error e) ∧
    (getInterface s box o = .ok [] → contactLineCells s box o area eh = .ok ([], [])) := by
  constructor
  · intro e h; unfold contactLineCells; rw [h]; rfl
  · intro h; unfold contactLineCells; rw [h]; rfl

/-- **C38, widening, partial.** A wider or higher area contains all cells of the smaller one, provided the height of the smaller
area is not below the extraction height.  Missing: smaller heights, see below. -/
theorem C38_widening_partial (s : System) (box : Option (ℚ × ℚ)) (o : Opts) (w h w' h' eh : ℚ) (hw : 0 ≤ w) (hww : w ≤ w') (hh : h ≤ h') (he : eh ≤ h)
    (L R L' R' : List ℕ) (h1 : contactLineCells s box o (w, h) eh = .ok (L, R)) (h2 : contactLineCells s box o (w', h') eh = .ok (L', R')) :
    (∀ t ∈ L, t ∈ L') ∧ ∀ t ∈ R, t ∈ R' := by
  cases hp : getInterface s box o with
  | error e => rw [(C38_errors s box o (w, h) eh).1 e hp] at h1; cases h1
  | ok pts =>
    obtain ⟨L1, R1, e1, -, -, m1, n1⟩ := C38_cells_are_the_box s box o w h eh pts hp
    obtain ⟨L2, R2, e2, -, -, m2, n2⟩ := C38_cells_are_the_box s box o w' h' eh pts hp
    rw [h1] at e1
    rw [h2] at e2
    cases e1
    cases e2
    have hU : ∀ p, UsedLayer s pts h p → UsedLayer s pts h' p := by
      rintro p ⟨a, b⟩
      exact ⟨a, fun f hf => (b f hf).imp id fun hb => by linarith⟩
    have hE : ∀ p, UsedLayer s pts eh p → UsedLayer s pts h p := by
      rintro p ⟨a, b⟩
      exact ⟨a, fun f hf => (b f hf).imp id fun hb => by linarith⟩
    have hB : ∀ p, BoxLayer s pts h eh p → BoxLayer s pts h' eh p := by
      rintro p ⟨a, b, c⟩
      exact ⟨hU p a, b, fun q _ hq => c q (hE q hq) hq⟩
    constructor
    · intro t ht
      rw [m1] at ht
      rw [m2]
      obtain ⟨a, p, hp, ⟨⟨u, hu, huv⟩, ⟨v, hv, hvv⟩⟩, ⟨y1, ⟨q, hq, rfl⟩, hy1⟩, ⟨y2, ⟨q', hq', rfl⟩, hy2⟩⟩ := ht
      refine ⟨a, p, hB p hp, ⟨?_, ?_⟩, ⟨_, ⟨q, hU q hq, rfl⟩, hy1⟩, ⟨_, ⟨q', hU q' hq', rfl⟩, hy2⟩⟩
      · rcases hu with rfl | ⟨r, hr, rfl⟩
        · exact ⟨_, Or.inr ⟨p, hU p hp.1, rfl⟩, by linarith⟩
        · exact ⟨_, Or.inr ⟨r, hU r hr, rfl⟩, huv⟩
      · rcases hv with rfl | ⟨r, hr, rfl⟩
        · exact ⟨_, Or.inl rfl, by linarith⟩
        · exact ⟨_, Or.inr ⟨r, hU r hr, rfl⟩, hvv⟩
    · intro t ht
      rw [n1] at ht
      rw [n2]
      obtain ⟨a, p, hp, ⟨⟨u, hu, huv⟩, ⟨v, hv, hvv⟩⟩, ⟨y1, ⟨q, hq, rfl⟩, hy1⟩, ⟨y2, ⟨q', hq', rfl⟩, hy2⟩⟩ := ht
      refine ⟨a, p, hB p hp, ⟨?_, ?_⟩, ⟨_, ⟨q, hU q hq, rfl⟩, hy1⟩, ⟨_, ⟨q', hU q' hq', rfl⟩, hy2⟩⟩
      · rcases hu with rfl | ⟨r, hr, rfl⟩
        · exact ⟨_, Or.inl rfl, by linarith⟩
        · exact ⟨_, Or.inr ⟨r, hU r hr, rfl⟩, huv⟩
      · rcases hv with rfl | ⟨r, hr, rfl⟩
        · exact ⟨_, Or.inr ⟨p, hU p hp.1, rfl⟩, by linarith⟩
        · exact ⟨_, Or.inr ⟨r, hU r hr, rfl⟩, hvv⟩

/-- A droplet of three layers, wider at the top: 7 bins per layer, full from x = 2, 1 and 0 on. -/
def dropDemo : System :=
  [⟨0, 0, 0, []⟩, ⟨1, 0, 0, []⟩, ⟨2, 0, 9, []⟩, ⟨3, 0, 9, []⟩, ⟨4, 0, 9, []⟩, ⟨5, 0, 0, []⟩, ⟨6, 0, 0, []⟩,
   ⟨0, 1, 0, []⟩, ⟨1, 1, 9, []⟩, ⟨2, 1, 9, []⟩, ⟨3, 1, 9, []⟩, ⟨4, 1, 9, []⟩, ⟨5, 1, 9, []⟩, ⟨6, 1, 0, []⟩,
   ⟨0, 2, 9, []⟩, ⟨1, 2, 9, []⟩, ⟨2, 2, 9, []⟩, ⟨3, 2, 9, []⟩, ⟨4, 2, 9, []⟩, ⟨5, 2, 9, []⟩, ⟨6, 2, 9, []⟩]

/-- The left cells reach from the interface in the second layer to one bin inside the bottom one. -/
example : contactLineCells dropDemo none {} (1, 1) 0 = .ok ([1, 2, 3, 8, 9, 10], [3, 4, 5, 10, 11, 12]) ∧
    contactLineCells dropDemo none {} (1, 1) 1 = .ok ([1, 2, 8, 9], [4, 5, 11, 12]) ∧
    getInterface dropDemo none {} = .ok [(2, 4), (8, 12), (14, 20)] := by decide +kernel

/-- **C38, widening is false below the extraction height.** The cell in row 3 is extracted with the area (1, 0) but not with the
higher area (1, 1), since the box is then placed at another layer. -/
theorem C38_widening_counterexample :
    contactLineCells dropDemo none {} (1, 0) 1 = .ok ([2, 3], [3, 4]) ∧
    contactLineCells dropDemo none {} (1, 1) 1 = .ok ([1, 2, 8, 9], [4, 5, 11, 12]) := by decide +kernel

/-! ## C39 -/

/-- **C39.** The cells are moved rigidly: the lowest is at y = 0 and the leftmost ('right') or rightmost ('left') at x = 0; adding
the returned vector gives the original coordinates; other fields are unchanged. -/
theorem C39_adjust (cells : Record) (h : Wf cells) (co : Label × Label) (hne : co.1 ≠ co.2) (hx : co.1 ∈ names cells) (hy : co.2 ∈ names cells)
    (hn : 0 < Flow.size cells) (direction : String) (hd : direction = "left" ∨ direction = "right") :
    ∃ adj r, adjustCells cells direction co = .ok (adj, r) ∧ names r = names cells ∧ Flow.size r = Flow.size cells ∧
      (∀ t, t < Flow.size cells → val r co.1 t + adj.1 = val cells co.1 t ∧ val r co.2 t + adj.2 = val cells co.2 t ∧
        ∀ l, l ≠ co.1 → l ≠ co.2 → val r l t = val cells l t) ∧
      (∃ t, t < Flow.size cells ∧ val r co.2 t = 0) ∧ (∀ t, t < Flow.size cells → 0 ≤ val r co.2 t) ∧
      (∃ t, t < Flow.size cells ∧ val r co.1 t = 0) ∧
      (direction = "right" → ∀ t, t < Flow.size cells → 0 ≤ val r co.1 t) ∧
      (direction = "left" → ∀ t, t < Flow.size cells → val r co.1 t ≤ 0) := by
  obtain ⟨cx, hcx⟩ := (col?_isSome_iff cells co.1).mpr hx
  obtain ⟨cy, hcy⟩ := (col?_isSome_iff cells co.2).mpr hy
  obtain ⟨y0, hy0, ⟨ty, hty, ety⟩, miny⟩ := npMin_val h hcy hn
  have hfx : field cells co.1 = .ok cx := by unfold field; rw [hcx]
  have hfy : field cells co.2 = .ok cy := by unfold field; rw [hcy]
  obtain ⟨x0, hx0, ⟨tx, htx, etx⟩, hright, hleft⟩ : ∃ x0, getX0 cells direction co.1 = .ok x0 ∧ (∃ t, t < Flow.size cells ∧ val cells co.1 t = x0) ∧
      (direction = "right" → ∀ t, t < Flow.size cells → x0 ≤ val cells co.1 t) ∧ (direction = "left" → ∀ t, t < Flow.size cells → val cells co.1 t ≤ x0) := by
    rcases hd with rfl | rfl
    · obtain ⟨m, e, a, b⟩ := npMax_val h hcx hn
      refine ⟨m, ?_, a, fun hc => absurd hc (by decide), fun _ => b⟩
      unfold getX0
      rw [hfx, ok_bind, if_neg (by decide), if_pos rfl, e]
    · obtain ⟨m, e, a, b⟩ := npMin_val h hcx hn
      refine ⟨m, ?_, a, fun _ => b, fun hc => absurd hc (by decide)⟩
      unfold getX0
      rw [hfx, ok_bind, if_pos rfl, e]
  obtain ⟨r1, e1, w1, n1, s1, v1⟩ := subCol_spec h hx x0
  obtain ⟨r2, e2, w2, n2, s2, v2⟩ := subCol_spec w1 (l := co.2) (by rw [n1]; exact hy) y0
  have hvx : ∀ t, t < Flow.size cells → val r2 co.1 t = val cells co.1 t - x0 := by
    intro t ht
    rw [v2 _ _ (by rw [s1]; exact ht), if_neg hne, v1 _ _ ht, if_pos rfl]
  have hvy : ∀ t, t < Flow.size cells → val r2 co.2 t = val cells co.2 t - y0 := by
    intro t ht
    rw [v2 _ _ (by rw [s1]; exact ht), if_pos rfl, v1 _ _ ht, if_neg (Ne.symm hne)]
  refine ⟨(x0, y0), r2, ?_, by rw [n2, n1], by rw [s2, s1], ?_, ⟨ty, hty, by rw [hvy ty hty, ety]; ring⟩,
    fun t ht => by rw [hvy t ht]; linarith [miny t ht], ⟨tx, htx, by rw [hvx tx htx, etx]; ring⟩,
    fun hr t ht => by rw [hvx t ht]; linarith [hright hr t ht], fun hl t ht => by rw [hvx t ht]; linarith [hleft hl t ht]⟩
  · unfold adjustCells adjustmentOf
    rw [hx0, ok_bind, hfy, ok_bind, hy0, ok_bind]
    simp only [catchValueError, ok_bind, e1, e2]
  · intro t ht
    refine ⟨by rw [hvx t ht]; ring, by rw [hvy t ht]; ring, ?_⟩
    intro l h1 h2
    rw [v2 _ _ (by rw [s1]; exact ht), if_neg h2, v1 _ _ ht, if_neg h1]

/-- **C39, no cells.** They are returned as they are, with (0, 0). -/
theorem C39_empty (cells : Record) (h : Wf cells) (co : Label × Label) (hx : co.1 ∈ names cells) (hy : co.2 ∈ names cells)
    (hn : Flow.size cells = 0) (direction : String) (hd : direction = "left" ∨ direction = "right") :
    adjustCells cells direction co = .ok ((0, 0), cells) := by
  obtain ⟨cx, hcx⟩ := (col?_isSome_iff cells co.1).mpr hx
  obtain ⟨cy, hcy⟩ := (col?_isSome_iff cells co.2).mpr hy
  have hfx : field cells co.1 = .ok cx := by unfold field; rw [hcx]
  have hcx0 : cx = [] := List.length_eq_zero_iff.mp (by rw [col?_length h hcx, hn])
  have hset : ∀ l c, col? cells l = some c → subCol cells l 0 = .ok cells := by
    intro l c hc
    have hc0 : c = [] := List.length_eq_zero_iff.mp (by rw [col?_length h hc, hn])
    unfold subCol field
    rw [hc, ok_bind, hc0]
    congr 1
    unfold setCol
    conv_rhs => rw [← List.map_id cells]
    apply List.map_congr_left
    rintro ⟨l', c'⟩ hm
    simp only [id]
    split
    · rename_i he
      have : c' = [] := List.length_eq_zero_iff.mp (by rw [h.2 _ hm, hn])
      simp [this]
    · rfl
  have hadj : adjustmentOf cells direction co = .error .valueError := by
    unfold adjustmentOf getX0
    rw [hfx, ok_bind, hcx0]
    rcases hd with rfl | rfl
    · rw [if_neg (by decide), if_pos rfl]; rfl
    · rw [if_pos rfl]; rfl
  unfold adjustCells
  rw [hadj]
  simp only [catchValueError, ok_bind]
  rw [hset _ _ hcx, ok_bind, hset _ _ hcy, ok_bind]

/-- **C39, direction.** Any other direction raises `KeyError`, also without cells. -/
theorem C39_bad_direction (cells : Record) (co : Label × Label) (hx : co.1 ∈ names cells) (direction : String)
    (hd : direction ≠ "left" ∧ direction ≠ "right") : adjustCells cells direction co = .error .keyError := by
  obtain ⟨cx, hcx⟩ := (col?_isSome_iff cells co.1).mpr hx
  have hfx : field cells co.1 = .ok cx := by unfold field; rw [hcx]
  unfold adjustCells adjustmentOf getX0
  rw [hfx, ok_bind, if_neg hd.2, if_neg hd.1]
  rfl

example : adjustCells [("X", [3, 1, 2]), ("Y", [5, 4, 4]), ("M", [1, 2, 3])] "left" = .ok ((3, 4), [("X", [0, -2, -1]), ("Y", [1, 0, 0]), ("M", [1, 2, 3])]) ∧
    adjustCells [("X", [3, 1, 2]), ("Y", [5, 4, 4]), ("M", [1, 2, 3])] "right" = .ok ((1, 4), [("X", [2, 0, 1]), ("Y", [1, 0, 0]), ("M", [1, 2, 3])]) ∧
    adjustCells [("X", []), ("Y", [])] "left" = .ok ((0, 0), [("X", []), ("Y", [])]) ∧
    adjustCells [("X", []), ("Y", [])] "up" = .error .keyError := by
  refine ⟨?_, ?_, ?_, ?_⟩ <;> decide +kernel

/-! ## C69 -/

/-- **C69.** After fusing edges that both have cells, the left edge ends at `-dx/2` and the right one starts at `dx/2`; each is
moved rigidly along x and nothing else changes. -/
theorem C69_fuse (left right : Record) (hl : Wf left) (hr : Wf right) (hlx : "X" ∈ names left) (hrx : "X" ∈ names right)
    (hln : 0 < Flow.size left) (hrn : 0 < Flow.size right) (dx : ℚ) :
    ∃ l r a b, fuseEdges left right dx = .ok (l, r) ∧
      (names l = names left ∧ Flow.size l = Flow.size left ∧ names r = names right ∧ Flow.size r = Flow.size right) ∧
      (∀ t, t < Flow.size left → val l "X" t = val left "X" t + a ∧ ∀ f, f ≠ "X" → val l f t = val left f t) ∧
      (∀ t, t < Flow.size right → val r "X" t = val right "X" t + b ∧ ∀ f, f ≠ "X" → val r f t = val right f t) ∧
      (∃ t, t < Flow.size left ∧ val l "X" t = -dx / 2) ∧ (∀ t, t < Flow.size left → val l "X" t ≤ -dx / 2) ∧
      (∃ t, t < Flow.size right ∧ val r "X" t = dx / 2) ∧ ∀ t, t < Flow.size right → dx / 2 ≤ val r "X" t := by
  obtain ⟨cl, hcl⟩ := (col?_isSome_iff left "X").mpr hlx
  obtain ⟨cr, hcr⟩ := (col?_isSome_iff right "X").mpr hrx
  have hfl : field left "X" = .ok cl := by unfold field; rw [hcl]
  have hfr : field right "X" = .ok cr := by unfold field; rw [hcr]
  obtain ⟨m, hm, ⟨tl, htl, etl⟩, maxl⟩ := npMax_val hl hcl hln
  obtain ⟨n, hn, ⟨tr, htr, etr⟩, minr⟩ := npMin_val hr hcr hrn
  obtain ⟨l, e1, -, n1, s1, v1⟩ := subCol_spec hl hlx (m + 1 / 2 * dx)
  obtain ⟨r, e2, -, n2, s2, v2⟩ := subCol_spec hr hrx (n - 1 / 2 * dx)
  refine ⟨l, r, -(m + 1 / 2 * dx), -(n - 1 / 2 * dx), ?_, ⟨n1, s1, n2, s2⟩, ?_, ?_, ?_, ?_, ?_, ?_⟩
  · unfold fuseEdges
    rw [hfl, ok_bind, hm, ok_bind, hfr, ok_bind, hn, ok_bind, e1, ok_bind, e2, ok_bind]
  · intro t ht
    refine ⟨by rw [v1 _ _ ht, if_pos rfl]; ring, fun f hf => by rw [v1 _ _ ht, if_neg hf]⟩
  · intro t ht
    refine ⟨by rw [v2 _ _ ht, if_pos rfl]; ring, fun f hf => by rw [v2 _ _ ht, if_neg hf]⟩
  · exact ⟨tl, htl, by rw [v1 _ _ htl, if_pos rfl, etl]; ring⟩
  · intro t ht
    rw [v1 _ _ ht, if_pos rfl]; linarith [maxl t ht]
  · exact ⟨tr, htr, by rw [v2 _ _ htr, if_pos rfl, etr]; ring⟩
  · intro t ht
    rw [v2 _ _ ht, if_pos rfl]; linarith [minr t ht]

/-- **C69, no collisions.** For a positive spacing no bin of the left edge is at the position of one of the right edge; the
closest columns are one spacing apart. -/
theorem C69_no_collision (left right l r : Record) (hl : Wf left) (hr : Wf right) (hlx : "X" ∈ names left) (hrx : "X" ∈ names right)
    (hln : 0 < Flow.size left) (hrn : 0 < Flow.size right) (dx : ℚ) (h : fuseEdges left right dx = .ok (l, r)) :
    (∃ t u, t < Flow.size l ∧ u < Flow.size r ∧ val r "X" u - val l "X" t = dx) ∧
    ∀ t u, t < Flow.size l → u < Flow.size r → dx ≤ val r "X" u - val l "X" t := by
  obtain ⟨l', r', a, b, e, ⟨-, s1, -, s2⟩, -, -, ⟨t, ht, et⟩, h2, ⟨u, hu, eu⟩, h4⟩ := C69_fuse left right hl hr hlx hrx hln hrn dx
  rw [h] at e
  cases e
  refine ⟨⟨t, u, by rw [s1]; exact ht, by rw [s2]; exact hu, by rw [et, eu]; ring⟩, ?_⟩
  intro t u ht hu
  have := h2 t (by rw [← s1]; exact ht)
  have := h4 u (by rw [← s2]; exact hu)
  linarith

/-- An edge without cells makes fusing raise `ValueError`. -/
theorem C69_empty_edge (left right : Record) (hl : Wf left) (hr : Wf right) (hlx : "X" ∈ names left) (hrx : "X" ∈ names right)
    (h0 : Flow.size left = 0 ∨ Flow.size right = 0) (dx : ℚ) : fuseEdges left right dx = .error .valueError := by
  obtain ⟨cl, hcl⟩ := (col?_isSome_iff left "X").mpr hlx
  obtain ⟨cr, hcr⟩ := (col?_isSome_iff right "X").mpr hrx
  have hfl : field left "X" = .ok cl := by unfold field; rw [hcl]
  have hfr : field right "X" = .ok cr := by unfold field; rw [hcr]
  unfold fuseEdges
  rw [hfl, ok_bind, hfr]
  by_cases hc : cl = []
  · rw [hc]; rfl
  · obtain ⟨m, hm⟩ := npMax_exists hc
    have : cr = [] := by
      rcases h0 with h0 | h0
      · exact absurd (List.length_eq_zero_iff.mp (by rw [col?_length hl hcl, h0])) hc
      · exact List.length_eq_zero_iff.mp (by rw [col?_length hr hcr, h0])
    rw [hm, this]; rfl

example : fuseEdges [("X", [1, 2]), ("M", [5, 6])] [("X", [8, 7]), ("M", [1, 1])] (1 / 2) =
    .ok ([("X", [-5 / 4, -1 / 4]), ("M", [5, 6])], [("X", [5 / 4, 1 / 4]), ("M", [1, 1])]) := by decide +kernel

/-! ## C70, C81 -/

/-- **C70.** The result is the centre of a bin, at most half a spacing away, and putting it on the grid again does not change it. -/
theorem C70_coord_on_grid (x dx : ℚ) (hdx : 0 < dx) :
    (∃ k : ℤ, coordOnGrid x dx = ((k : ℚ) + 1 / 2) * dx) ∧ |coordOnGrid x dx - x| ≤ dx / 2 ∧ coordOnGrid (coordOnGrid x dx) dx = coordOnGrid x dx := by
  refine ⟨⟨⌊x / dx⌋, rfl⟩, ?_, ?_⟩
  · unfold coordOnGrid
    have h1 := Int.floor_le (x / dx)
    have h2 := Int.lt_floor_add_one (x / dx)
    rw [le_div_iff₀ hdx] at h1
    rw [div_lt_iff₀ hdx] at h2
    rw [abs_le]
    constructor <;> linarith
  · unfold coordOnGrid
    rw [mul_div_assoc, div_self hdx.ne', mul_one]
    congr 2
    rw [Int.cast_inj, Int.floor_eq_iff]
    constructor <;> linarith

/-- The only bin centre at a distance of less than half a spacing is the result. -/
theorem C70_nearest (x dx : ℚ) (hdx : 0 < dx) (k : ℤ) (h : |((k : ℚ) + 1 / 2) * dx - x| < dx / 2) : coordOnGrid x dx = ((k : ℚ) + 1 / 2) * dx := by
  unfold coordOnGrid
  rw [abs_lt] at h
  have : ⌊x / dx⌋ = k := by
    rw [Int.floor_eq_iff, le_div_iff₀ hdx, div_lt_iff₀ hdx]
    constructor <;> linarith
  rw [this]

example : coordOnGrid (7 / 10) (1 / 2) = 3 / 4 ∧ coordOnGrid (-1 / 10) (1 / 2) = -1 / 4 := by decide +kernel

/-- **C81.** Putting the averaged edges back: each edge is moved rigidly, its origin to a bin centre at most half a bin from the
target, which is its mean position or, recentred, minus and plus half the mean distance of the edges; y is moved by `yadj`. -/
theorem C81_edges_put_back (left right : Record) (hl : Wf left) (hr : Wf right) (hlx : "X" ∈ names left) (hly : "Y" ∈ names left)
    (hrx : "X" ∈ names right) (hry : "Y" ∈ names right) (xl xr dx yadj : ℚ) (hdx : 0 < dx) (recenter : Bool) (gl gr : ℚ)
    (hgl : gl = if recenter then -(xr - xl) / 2 else xl) (hgr : gr = if recenter then (xr - xl) / 2 else xr) :
    ∃ l r a b, adjustCoordinates left right (xl, xr) dx yadj recenter = .ok (l, r) ∧
      (∃ k : ℤ, a = ((k : ℚ) + 1 / 2) * dx) ∧ (∃ k : ℤ, b = ((k : ℚ) + 1 / 2) * dx) ∧ |a - gl| ≤ dx / 2 ∧ |b - gr| ≤ dx / 2 ∧
      Flow.size l = Flow.size left ∧ Flow.size r = Flow.size right ∧
      (∀ t, t < Flow.size left → val l "X" t = val left "X" t + a ∧ val l "Y" t = val left "Y" t + yadj ∧
        ∀ f, f ≠ "X" → f ≠ "Y" → val l f t = val left f t) ∧
      ∀ t, t < Flow.size right → val r "X" t = val right "X" t + b ∧ val r "Y" t = val right "Y" t + yadj ∧
        ∀ f, f ≠ "X" → f ≠ "Y" → val r f t = val right f t := by
  have ea : (if recenter = true then (-(1 / 2 * (xr - xl)), 1 / 2 * (xr - xl)) else (xl, xr)) = (gl, gr) := by
    rw [hgl, hgr]; split
    · exact Prod.ext (by simp; ring) (by simp; ring)
    · rfl
  obtain ⟨l1, e1, w1, n1, s1, v1⟩ := subCol_spec hl hlx (-coordOnGrid gl dx)
  obtain ⟨l2, e2, -, -, s2, v2⟩ := subCol_spec w1 (l := "Y") (by rw [n1]; exact hly) (-yadj)
  obtain ⟨r1, f1, x1, m1, t1, u1⟩ := subCol_spec hr hrx (-coordOnGrid gr dx)
  obtain ⟨r2, f2, -, -, t2, u2⟩ := subCol_spec x1 (l := "Y") (by rw [m1]; exact hry) (-yadj)
  refine ⟨l2, r2, coordOnGrid gl dx, coordOnGrid gr dx, ?_, (C70_coord_on_grid gl dx hdx).1, (C70_coord_on_grid gr dx hdx).1,
    (C70_coord_on_grid gl dx hdx).2.1, (C70_coord_on_grid gr dx hdx).2.1, by rw [s2, s1], by rw [t2, t1], ?_, ?_⟩
  · unfold adjustCoordinates
    simp only [ea]
    rw [e1, ok_bind, e2, ok_bind, f1, ok_bind, f2, ok_bind]
  · intro t ht
    have ht' : t < Flow.size l1 := by rw [s1]; exact ht
    refine ⟨?_, ?_, ?_⟩
    · rw [v2 _ _ ht', if_neg (by decide), v1 _ _ ht, if_pos rfl]; ring
    · rw [v2 _ _ ht', if_pos rfl, v1 _ _ ht, if_neg (by decide)]; ring
    · intro f h1 h2
      rw [v2 _ _ ht', if_neg h2, v1 _ _ ht, if_neg h1]
  · intro t ht
    have ht' : t < Flow.size r1 := by rw [t1]; exact ht
    refine ⟨?_, ?_, ?_⟩
    · rw [u2 _ _ ht', if_neg (by decide), u1 _ _ ht, if_pos rfl]; ring
    · rw [u2 _ _ ht', if_pos rfl, u1 _ _ ht, if_neg (by decide)]; ring
    · intro f h1 h2
      rw [u2 _ _ ht', if_neg h2, u1 _ _ ht, if_neg h1]

example : adjustCoordinates [("X", [0, -1]), ("Y", [0, 0])] [("X", [0, 1]), ("Y", [0, 1])] (3, 8) 1 (1 / 2) true =
    .ok ([("X", [-5 / 2, -7 / 2]), ("Y", [1 / 2, 1 / 2])], [("X", [5 / 2, 7 / 2]), ("Y", [1 / 2, 3 / 2])]) := by decide +kernel

/-! ## C79 -/

/-- **C79, blocks.** Without rolling the files are averaged in consecutive blocks of `m`; an incomplete last block is left out. -/
theorem C79_blocks {α : Type} (m : ℕ) (hm : 0 < m) (xs : List α) :
    (groupLoop m false [] xs).length = xs.length / m ∧
    ∀ k g, (groupLoop m false [] xs)[k]? = some g → g.length = m ∧ ∀ i, i < m → g[i]? = xs[k * m + i]? := by
  rw [groupLoop_block m hm xs [] (by simpa using hm), List.nil_append]
  refine ⟨by simp, ?_⟩
  intro k g hg
  rw [List.getElem?_map, Option.map_eq_some_iff] at hg
  obtain ⟨k', hk, rfl⟩ := hg
  rw [List.getElem?_eq_some_iff] at hk
  obtain ⟨hk1, hk2⟩ := hk
  rw [List.getElem_range] at hk2
  subst hk2
  rw [List.length_range] at hk1
  have hle : (k + 1) * m ≤ xs.length := by
    calc (k + 1) * m ≤ xs.length / m * m := Nat.mul_le_mul_right _ hk1
      _ ≤ xs.length := Nat.div_mul_le_self _ _
  refine ⟨?_, ?_⟩
  · rw [List.length_take, List.length_drop]
    rw [Nat.succ_mul] at hle
    omega
  · intro i hi
    rw [List.getElem?_take, if_pos hi, List.getElem?_drop]

/-- **C79, rolling.** With rolling there is one group for every `m` consecutive files. -/
theorem C79_rolling {α : Type} (m : ℕ) (hm : 0 < m) (xs : List α) :
    (groupLoop m true [] xs).length = xs.length + 1 - m ∧
    ∀ k g, (groupLoop m true [] xs)[k]? = some g → g.length = m ∧ ∀ i, i < m → g[i]? = xs[k + i]? := by
  rw [groupLoop_rolling m hm xs [] (by simpa using hm), List.nil_append]
  refine ⟨by simp, ?_⟩
  intro k g hg
  rw [List.getElem?_map, Option.map_eq_some_iff] at hg
  obtain ⟨k', hk, rfl⟩ := hg
  rw [List.getElem?_eq_some_iff] at hk
  obtain ⟨hk1, hk2⟩ := hk
  rw [List.getElem_range] at hk2
  subst hk2
  rw [List.length_range] at hk1
  refine ⟨?_, ?_⟩
  · rw [List.length_take, List.length_drop]
    omega
  · intro i hi
    rw [List.getElem?_take, if_pos hi, List.getElem?_drop]

/-- **C79, no groups.** A number that is not positive gives nothing. -/
theorem C79_nonpositive {α : Type} (m : ℤ) (hm : m ≤ 0) (rolling : Bool) (xs : List α) : groupLoop m rolling [] xs = [] :=
  groupLoop_nonpos m hm rolling xs []

/-- **C79, times.** The time of a group is that of the file in its middle, file number `n` (from 0) having the time `n * dt`. -/
theorem C79_times (m : ℕ) (dt : ℚ) (k : ℕ) :
    edgeTime m false dt k = ((k * m + m / 2 : ℕ) : ℚ) * dt ∧ edgeTime m true dt k = ((k + m / 2 : ℕ) : ℚ) * dt := by
  have h : (⌊(1 / 2 : ℚ) * ((m : ℤ) : ℚ)⌋ : ℚ) = ((m / 2 : ℕ) : ℚ) := by
    have h1 : 2 * (m / 2) ≤ m := by omega
    have h2 : m < 2 * (m / 2) + 2 := by omega
    generalize m / 2 = q at h1 h2
    have h1' : (2 : ℚ) * (q : ℚ) ≤ m := by exact_mod_cast h1
    have h2' : (m : ℚ) < 2 * (q : ℚ) + 2 := by exact_mod_cast h2
    have : ⌊(1 / 2 : ℚ) * ((m : ℤ) : ℚ)⌋ = (q : ℤ) := by
      rw [Int.floor_eq_iff]
      push_cast
      constructor <;> linarith
    rw [this]; simp
  unfold edgeTime
  simp only [h, Bool.false_eq_true, if_false, if_true]
  generalize m / 2 = q
  push_cast
  constructor <;> ring

example : groupLoop 2 false [] [1, 2, 3, 4, 5] = [[1, 2], [3, 4]] ∧ groupLoop 3 true [] [1, 2, 3, 4, 5] = [[1, 2, 3], [2, 3, 4], [3, 4, 5]] ∧
    edgeTime 3 false 2 1 = 8 := by decide +kernel

/-! ## C80 -/

/-- **C80 is false.** Sampling at least one label of at least one pair of edges always ends the program, or, if quiet, raises
`UnboundLocalError`, whatever the data. -/
theorem C80_sampling_never_succeeds {γ : Type} (labels : List Label) (value : γ → Label → Except Err ℚ) (average : ℤ) (rolling : Bool) (dt : ℚ)
    (edges : List γ) (hl : labels ≠ []) (he : edges ≠ []) :
    sampleEdges labels value average rolling dt false edges = .error .systemExit ∧
    sampleEdges labels value average rolling dt true edges = .error .unboundLocalError := by
  refine ⟨?_, rfl⟩
  unfold sampleEdges averagedEdges
  simp only [Bool.false_eq_true, if_false, ok_bind]
  have hval : ∀ (e : γ) l, appendSample (value e l) = .error .systemExit := by
    intro e l
    unfold appendSample
    cases value e l with
    | ok v => rfl
    | error e => rfl
  cases edges with
  | nil => exact absurd rfl he
  | cons e rest =>
    cases labels with
    | nil => exact absurd rfl hl
    | cons l ls =>
      rw [List.zipIdx_cons, List.mapM_cons, List.mapM_cons, hval]
      rfl

/-- **C80, what is left.** Only without labels or without a complete group are the times returned. -/
theorem C80_times_partial {γ : Type} (value : γ → Label → Except Err ℚ) (average : ℤ) (rolling : Bool) (dt : ℚ) (edges : List γ) :
    sampleEdges [] value average rolling dt false edges = .ok ((List.range edges.length).map (edgeTime average rolling dt)) := by
  unfold sampleEdges averagedEdges
  simp only [Bool.false_eq_true, if_false, ok_bind]
  have : ∀ (es : List γ) (n : ℕ), ((es.zipIdx n).mapM fun e => do
      let _ ← ([] : List Label).mapM fun l => appendSample (value e.1 l)
      Except.ok (ε := Err) (edgeTime average rolling dt e.2)) = .ok ((List.range' n es.length).map (edgeTime average rolling dt)) := by
    intro es
    induction es with
    | nil => intro n; rfl
    | cons e es ih =>
      intro n
      rw [List.zipIdx_cons, List.mapM_cons, ih, List.mapM_nil]
      simp only [List.length_cons, List.range'_succ, List.map_cons]
      rfl
  rw [this edges 0, List.range_eq_range']

/-- **C80, extraction.** Extracting the bins of at least one complete group always fails: nothing is ever written. -/
theorem C80_extraction_never_succeeds {γ δ : Type} (combine : γ → Except Err δ) (quiet : Bool) (edges : List γ) (he : edges ≠ []) :
    ∃ e, extractBins combine quiet edges = .error e := by
  unfold extractBins averagedEdges
  cases quiet with
  | true => exact ⟨_, rfl⟩
  | false =>
    simp only [Bool.false_eq_true, if_false, ok_bind]
    cases edges with
    | nil => exact absurd rfl he
    | cons e rest =>
      rw [List.mapM_cons]
      cases combine e with
      | error x => exact ⟨x, rfl⟩
      | ok d => exact ⟨.typeError, rfl⟩

example : sampleEdges ["M"] (fun (_ : ℕ) _ => .ok 3) 1 false 1 false [0, 1] = .error .systemExit ∧
    extractBins (fun n : ℕ => .ok n) false [1, 2] = .error .typeError := by decide +kernel

/-! ## C82 -/

/-- **C82, partial.** For cells sorted by layers, `nx` in the lowest layer, all at its height, followed by a bin that is not
within the tolerances, the shape has `nx` columns.  With complete layers it is the shape of the cells.  The upper tolerance is
half the *x* spacing, so this needs `dx ≤ 2 dy`.  Missing: a single layer, and flat bins; see below. -/
theorem C82_shape_partial (nx ny : ℕ) (hnx : 0 < nx) (hny : 2 ≤ ny) (y0 dx dy : ℚ) (hdx : 0 < dx) (hdy : 0 < dy) (hd : dx ≤ 2 * dy) :
    cutShape ((List.range (nx * ny)).map fun t : ℕ => y0 + dy * ((t / nx : ℕ) : ℚ)) dx dy = .ok (nx, ny) := by
  have hlen : nx < nx * ny := by nlinarith
  obtain ⟨rest, hrest⟩ : ∃ rest, nx * ny = nx + (rest + 1) := ⟨nx * ny - nx - 1, by omega⟩
  have e : (List.range (nx * ny)).map (fun t : ℕ => y0 + dy * ((t / nx : ℕ) : ℚ)) =
      y0 :: ((List.replicate (nx - 1) y0) ++ (y0 + dy) :: (List.range rest).map (fun t : ℕ => y0 + dy * (((nx + (t + 1)) / nx : ℕ) : ℚ))) := by
    rw [← List.cons_append, ← List.replicate_succ, Nat.sub_add_cancel hnx, hrest, List.range_add, List.map_append, List.map_map, List.range_succ_eq_map, List.map_cons, List.map_map]
    congr 1
    · rw [List.eq_replicate_iff]
      refine ⟨by simp, ?_⟩
      intro b hb
      obtain ⟨t, ht, rfl⟩ := List.mem_map.mp hb
      rw [Nat.div_eq_of_lt (List.mem_range.mp ht)]; simp
    · simp only [Function.comp, Nat.add_zero, Nat.div_self hnx]
      congr 1
      simp
  have hl := congrArg List.length e
  rw [List.length_map, List.length_range] at hl
  rw [e, cutShape]
  rw [cutLoop_spec y0 dx dy _ 1 (List.replicate (nx - 1) y0) (y0 + dy) _ rfl]
  · rw [ok_bind, List.length_replicate, Nat.add_sub_cancel' hnx, ← hl, Nat.mul_div_cancel_left _ hnx]
  · intro y hy
    rw [List.mem_replicate] at hy
    rw [hy.2]
    constructor <;> linarith
  · rintro ⟨-, h⟩
    linarith

/-- **C82 is false for flat bins.** For bins less than half as high as wide the first layers are counted as one. -/
theorem C82_flat_bins_counterexample : cutShape ([0, 0, 1, 1, 2, 2, 3, 3, 4, 4]) 4 1 = .ok (4, 2) := by decide +kernel

/-- **C82 is false for a single layer.** It raises `IndexError`, for every number of cells and spacing. -/
theorem C82_single_layer (n : ℕ) (y0 dx dy : ℚ) (hdx : 0 < dx) (hdy : 0 < dy) : cutShape (List.replicate n y0) dx dy = .error .indexError := by
  cases n with
  | zero => rfl
  | succ n =>
    rw [List.replicate_succ, cutShape, cutLoop_all]
    · rfl
    · intro y hy
      rw [(List.mem_replicate.mp hy).2]
      constructor <;> linarith

/-- Number of layers that count as the lowest one: layer `j` does if `dy * j < dx / 2`. -/
theorem lowest_layers (dx dy : ℚ) (hdy : 0 < dy) (j : ℕ) : dy * (j : ℚ) < dx / 2 ↔ j < ⌈dx / (2 * dy)⌉₊ := by
  rw [Nat.lt_ceil, lt_div_iff₀ (show (0 : ℚ) < 2 * dy by linarith), lt_div_iff₀ (show (0 : ℚ) < 2 by norm_num)]
  constructor <;> intro h <;> linarith

/-- **C82, as coded**, for all complete layers and all spacings: the layers closer than half the *x* spacing to the lowest one are counted
as one row.  Their number is `⌈dx / (2 dy)⌉`. -/
theorem C82_as_coded (nx ny : ℕ) (hnx : 0 < nx) (y0 dx dy : ℚ) (hdx : 0 < dx) (hdy : 0 < dy) :
    cutShape ((List.range (nx * ny)).map fun t : ℕ => y0 + dy * ((t / nx : ℕ) : ℚ)) dx dy =
      if ⌈dx / (2 * dy)⌉₊ < ny then .ok (nx * ⌈dx / (2 * dy)⌉₊, ny / ⌈dx / (2 * dy)⌉₊) else .error .indexError := by
  have hm : 0 < ⌈dx / (2 * dy)⌉₊ := Nat.ceil_pos.mpr (by positivity)
  have key := lowest_layers dx dy hdy
  generalize ⌈dx / (2 * dy)⌉₊ = m at hm key
  have inside : ∀ t : ℕ, t < nx * m → y0 - 1 / 2 * dy ≤ y0 + dy * ((t / nx : ℕ) : ℚ) ∧ y0 + dy * ((t / nx : ℕ) : ℚ) < y0 + 1 / 2 * dx := by
    intro t ht
    have h1 : t / nx < m := Nat.div_lt_of_lt_mul ht
    have h2 := (key _).mpr h1
    have h3 : (0 : ℚ) ≤ ((t / nx : ℕ) : ℚ) := Nat.cast_nonneg _
    constructor
    · nlinarith
    · linarith
  by_cases h : m < ny
  · rw [if_pos h]
    have hlen : nx * m < nx * ny := Nat.mul_lt_mul_of_pos_left h hnx
    have hp : 0 < nx * m := Nat.mul_pos hnx hm
    obtain ⟨k, hk⟩ : ∃ k, nx * m = k + 1 := ⟨nx * m - 1, by omega⟩
    obtain ⟨rest, hrest⟩ : ∃ rest, nx * ny = (k + 1) + (rest + 1) := ⟨nx * ny - nx * m - 1, by omega⟩
    have e : (List.range (nx * ny)).map (fun t : ℕ => y0 + dy * ((t / nx : ℕ) : ℚ)) =
        y0 :: ((List.range k).map (fun t : ℕ => y0 + dy * (((t + 1) / nx : ℕ) : ℚ)) ++ (y0 + dy * (m : ℚ)) :: (List.range rest).map (fun t : ℕ => y0 + dy * (((k + 1 + (t + 1)) / nx : ℕ) : ℚ))) := by
      rw [hrest, List.range_add, List.map_append, List.map_map, List.range_succ_eq_map, List.map_cons, List.map_map, List.range_succ_eq_map, List.map_cons, List.map_map]
      have h0 : ((k + 1 + 0) / nx) = m := by rw [Nat.add_zero, ← hk, Nat.mul_div_cancel_left _ hnx]
      simp only [Function.comp_def, h0, Nat.zero_div, Nat.cast_zero, mul_zero, add_zero, List.cons_append, Nat.succ_eq_add_one]
    have hl := congrArg List.length e
    rw [List.length_map, List.length_range] at hl
    rw [e, cutShape]
    rw [cutLoop_spec y0 dx dy _ 1 ((List.range k).map (fun t : ℕ => y0 + dy * (((t + 1) / nx : ℕ) : ℚ))) (y0 + dy * (m : ℚ)) _ rfl]
    · rw [ok_bind, ← hl, List.length_map, List.length_range, Nat.add_comm 1 k, ← hk, Nat.mul_div_mul_left _ _ hnx]
    · intro y hy
      obtain ⟨t, ht, rfl⟩ := List.mem_map.mp hy
      exact inside (t + 1) (by rw [hk]; have := List.mem_range.mp ht; omega)
    · rintro ⟨-, h2⟩
      exact absurd ((key m).mp (by linarith)) (lt_irrefl m)
  · rw [if_neg h]
    have hle : nx * ny ≤ nx * m := Nat.mul_le_mul_left _ (by omega)
    rcases hn : nx * ny with _ | k
    · rfl
    · rw [List.range_succ_eq_map, List.map_cons, Nat.zero_div, Nat.cast_zero, mul_zero, add_zero, List.map_map, cutShape, cutLoop_all]
      · rfl
      · intro y hy
        obtain ⟨t, ht, rfl⟩ := List.mem_map.mp hy
        exact inside (t + 1) (by have := List.mem_range.mp ht; omega)

/-- **C82, exact condition.** The shape of complete layers is found exactly if there are at least two of them and the bins are at most twice as wide as high. -/
theorem C82_shape_iff (nx ny : ℕ) (hnx : 0 < nx) (y0 dx dy : ℚ) (hdx : 0 < dx) (hdy : 0 < dy) :
    cutShape ((List.range (nx * ny)).map fun t : ℕ => y0 + dy * ((t / nx : ℕ) : ℚ)) dx dy = .ok (nx, ny) ↔ 2 ≤ ny ∧ dx ≤ 2 * dy := by
  rw [C82_as_coded nx ny hnx y0 dx dy hdx hdy]
  have hm : 0 < ⌈dx / (2 * dy)⌉₊ := Nat.ceil_pos.mpr (by positivity)
  have h1 : ⌈dx / (2 * dy)⌉₊ ≤ 1 ↔ dx ≤ 2 * dy := by
    rw [Nat.ceil_le, Nat.cast_one, div_le_one (by linarith)]
  rw [← h1]
  generalize ⌈dx / (2 * dy)⌉₊ = m at hm
  constructor
  · intro h
    by_cases hlt : m < ny
    · rw [if_pos hlt] at h
      have := congrArg Prod.fst (Except.ok.inj h)
      simp only at this
      have : m = 1 := Nat.eq_of_mul_eq_mul_left hnx (by omega)
      omega
    · rw [if_neg hlt] at h
      cases h
  · rintro ⟨h2, h3⟩
    have : m = 1 := by omega
    subst this
    rw [if_pos (by omega), Nat.mul_one, Nat.div_one]

example : cutShape ((List.range (2 * 5)).map fun t : ℕ => (0 : ℚ) + 1 * ((t / 2 : ℕ) : ℚ)) 4 1 = .ok (4, 2) := by decide +kernel

example : cutShape [0, 0, 0, 1, 1, 1] 1 1 = .ok (3, 2) := by decide +kernel

end Strata.ContactLine
