import Verif.Proofs.InterfaceAngle
import Mathlib.Tactic.FieldSimp
/-!
# Properties C30–C37: the interface of a droplet
-/
namespace Strata.Interface
open Strata Strata.Flow

/-! ## C30 -/

/-- **C30.** The neighbours of bin `i` are exactly the other bins at (Euclidean) distance at most the radius,
in ascending order. -/
theorem C30_neighbours (s : System) (i : ℕ) (r : ℚ) (hr : 0 ≤ r) :
    (∀ j, j ∈ indicesInRadius i s r ↔ j < s.length ∧ j ≠ i ∧
      Real.sqrt ((((row s j).x : ℝ) - (row s i).x) ^ 2 + (((row s j).y : ℝ) - (row s i).y) ^ 2) ≤ r) ∧
    (indicesInRadius i s r).Pairwise (· < ·) := by
  refine ⟨fun j => ?_, indicesInRadius_sorted i s r⟩
  rw [mem_indicesInRadius]
  refine and_congr_right fun _ => and_congr_right fun _ => ?_
  have hr' : (0 : ℝ) ≤ r := by exact_mod_cast hr
  rw [Real.sqrt_le_left hr']
  unfold Near
  constructor
  · intro h; exact_mod_cast h
  · intro h; exact_mod_cast h

/-- **C30.** Neighbourhood is symmetric. -/
theorem C30_symmetric (s : System) (i j : ℕ) (hi : i < s.length) (r : ℚ) (h : j ∈ indicesInRadius i s r) :
    i ∈ indicesInRadius j s r := by
  rw [mem_indicesInRadius] at h ⊢
  refine ⟨hi, h.2.1.symm, ?_⟩
  have := h.2.2
  unfold Near at this ⊢
  nlinarith

/-- **C30.** A larger radius never loses a neighbour. -/
theorem C30_monotone (s : System) (i : ℕ) (r r' : ℚ) (h0 : 0 ≤ r) (h : r ≤ r') :
    ∀ j ∈ indicesInRadius i s r, j ∈ indicesInRadius i s r' := by
  intro j hj
  rw [mem_indicesInRadius] at hj ⊢
  refine ⟨hj.1, hj.2.1, ?_⟩
  have := hj.2.2
  unfold Near at this ⊢
  nlinarith

example : indicesInRadius 0 [⟨0, 0, 1, []⟩, ⟨1, 0, 1, []⟩, ⟨1, 1, 1, []⟩, ⟨0, 1, 0, []⟩] 1 = [1, 3] := by decide +kernel

/-! ## C31 -/

/-- **C31.** The criterion: value at least the cut-off, and at least `bins` *other* bins within the radius
with the same property. -/
theorem C31_liquid (s : System) (i : ℕ) (hi : i < s.length) (r cutoff : ℚ) (bins : ℤ) :
    cellIsDroplet i s r cutoff bins = true ↔ cutoff ≤ (row s i).v ∧
      bins ≤ (((Finset.range s.length).filter fun j =>
        j ≠ i ∧ cutoff ≤ (row s j).v ∧ Near r (row s i) (row s j)).card : ℤ) := by
  rw [cellIsDroplet_iff i s hi]
  simp [Liquid, hi]

/-- **C31.** Monotonicity: lowering the cut-off or the number of neighbours, enlarging the radius and raising
values never makes a liquid bin non-liquid. -/
theorem C31_monotone (s s' : System) (i : ℕ) (hi : i < s.length) (r r' cutoff cutoff' : ℚ) (bins bins' : ℤ)
    (hlen : s'.length = s.length)
    (hs : ∀ j, j < s.length → (row s' j).x = (row s j).x ∧ (row s' j).y = (row s j).y ∧ (row s j).v ≤ (row s' j).v)
    (h0 : 0 ≤ r) (hr : r ≤ r') (hc : cutoff' ≤ cutoff) (hb : bins' ≤ bins)
    (h : cellIsDroplet i s r cutoff bins = true) : cellIsDroplet i s' r' cutoff' bins' = true := by
  rw [cellIsDroplet_iff i s hi] at h
  rw [cellIsDroplet_iff i s' (by omega)]
  obtain ⟨_, h1, h2⟩ := h
  obtain ⟨ex, ey, ev⟩ := hs i hi
  refine ⟨by omega, by linarith, hb.trans (h2.trans ?_)⟩
  rw [hlen]
  refine Int.ofNat_le.mpr (Finset.card_le_card ?_)
  intro j hj
  rw [Finset.mem_filter, Finset.mem_range] at hj ⊢
  obtain ⟨jx, jy, jv⟩ := hs j hj.1
  refine ⟨hj.1, hj.2.1, by linarith [hj.2.2.1], ?_⟩
  have := hj.2.2.2
  unfold Near at this ⊢
  rw [ex, ey, jx, jy]
  nlinarith

/-- The criterion does not depend on the order in which the bins are stored. -/
theorem C31_order_independent (s s' : System) (hp : s.Perm s') (i i' : ℕ) (hi : i < s.length) (hi' : i' < s'.length)
    (he : row s i = row s' i') (r cutoff : ℚ) (bins : ℤ) :
    cellIsDroplet i s r cutoff bins = cellIsDroplet i' s' r cutoff bins := by
  rw [cellIsDroplet_eq i s hi, cellIsDroplet_eq i' s' hi', he]
  apply decide_eq_decide.mpr
  unfold LiquidCell
  rw [hp.countP_eq]

example : let s : System := [⟨0, 0, 5, []⟩, ⟨1, 0, 5, []⟩, ⟨3, 0, 5, []⟩, ⟨1, 1, 1, []⟩]
    cellIsDroplet 0 s 1 3 1 = true ∧ cellIsDroplet 2 s 1 3 1 = false ∧ cellIsDroplet 0 s 1 3 2 = false := by
  decide +kernel

/-! ## C32 -/

/-- **C32.** The default search: for data in any order the yielded heights are strictly ascending; every
yielded pair lies in one layer within the limits, both bins are liquid and every liquid bin of that layer lies
between them; and every layer within the limits that has a liquid bin is represented. -/
theorem C32_outside_in (s : System) (box : Option (ℚ × ℚ)) (o : Opts) (hl : o.longest = false) (r cutoff : ℚ)
    (hc : getCutoff o.cutoff s = .ok cutoff) (hr : getRadius o.radius s = .ok r) :
    ∃ out, getInterface s box o = .ok out ∧
      (out.map fun p => (row s p.1).y).Pairwise (· < ·) ∧
      (∀ p ∈ out, (row s p.2).y = (row s p.1).y ∧ Within o.ylims.1 o.ylims.2 (row s p.1).y ∧
        Liquid s r cutoff o.bins p.1 ∧ Liquid s r cutoff o.bins p.2 ∧
        ∀ j, Liquid s r cutoff o.bins j → (row s j).y = (row s p.1).y →
          (row s p.1).x ≤ (row s j).x ∧ (row s j).x ≤ (row s p.2).x) ∧
      (∀ j, Liquid s r cutoff o.bins j → Within o.ylims.1 o.ylims.2 (row s j).y →
        ∃ p ∈ out, (row s p.1).y = (row s j).y) := by
  refine ⟨outsideIn s r cutoff o.bins o.ylims, ?_, outsideIn_spec s r cutoff o.bins o.ylims.1 o.ylims.2⟩
  unfold getInterface
  rw [hc]
  simp only [bind, Except.bind, hr, hl, Bool.false_eq_true, if_false]

/-- **C32.** The default cut-off is the midpoint between the smallest and largest value; a homogeneous map
has no interface (nothing is yielded). -/
theorem C32_default_cutoff (s : System) (box : Option (ℚ × ℚ)) (o : Opts) (ho : o.cutoff = none) (hne : s ≠ []) :
    ∃ lo hi, (∃ a ∈ s, a.v = lo) ∧ (∃ a ∈ s, a.v = hi) ∧ (∀ a ∈ s, lo ≤ a.v ∧ a.v ≤ hi) ∧
      (lo ≠ hi → getCutoff o.cutoff s = .ok ((lo + hi) / 2)) ∧
      (lo = hi → getInterface s box o = .ok []) := by
  have hne' : s.map (·.v) ≠ [] := by simpa using hne
  obtain ⟨lo, hlo⟩ := npMin_exists hne'
  obtain ⟨hi, hhi⟩ := npMax_exists hne'
  obtain ⟨m1, m2⟩ := (npMin_ok_iff _ _).mp hlo
  obtain ⟨n1, n2⟩ := (npMax_ok_iff _ _).mp hhi
  have hg : getCutoff none s = if lo ≠ hi then .ok ((1 / 2) * (lo + hi)) else .error .assertionError := by
    unfold getCutoff
    rw [hlo, hhi]
    rfl
  refine ⟨lo, hi, by simpa using m1, by simpa using n1, ?_, ?_, ?_⟩
  · intro a ha; exact ⟨m2 _ (List.mem_map_of_mem ha), n2 _ (List.mem_map_of_mem ha)⟩
  · intro h; rw [ho, hg, if_pos h]; congr 1; ring
  · intro h; unfold getInterface; rw [ho, hg, if_neg (not_not.mpr h)]

example : let s : System := [⟨2, 1, 5, []⟩, ⟨0, 0, 5, []⟩, ⟨1, 1, 5, []⟩, ⟨2, 0, 0, []⟩, ⟨1, 0, 5, []⟩, ⟨0, 1, 0, []⟩]
    getCutoff none s = .ok (5 / 2) ∧ getRadius none s = .ok 1 ∧
    getInterface s none {} = .ok [(1, 4), (2, 0)] := by decide +kernel

/-! ## C33, C34, C36 -/

/-- **C33.** The run search on any layer: nothing is found exactly if no cell is filled; otherwise the found
edges are the ends of a longest cyclic run of filled cells, which is the whole layer exactly if all are. -/
theorem C33_longest_run (filled : List Bool) :
    (findEdges filled = none ↔ ∀ b ∈ filled, b = false) ∧
    ∀ e1 e2, findEdges filled = some (e1, e2) →
      ∃ len, LongestRun (· = true) filled e1 len ∧ e2 = (e1 + len - 1) % filled.length ∧
        (len = filled.length ↔ ∀ b ∈ filled, b = true) :=
  findEdges_spec filled

example : findEdges [true, false, true, true, false, false, true, true] = some (6, 0) ∧
    findEdges [true, true, true] = some (0, 2) ∧ findEdges [false, false] = none := by decide

/-- **C33.** The periodic search, for data in any order: let `order` be the bins of a layer in ascending x.
If the layer lies within the limits and contains a bin that is liquid in the periodically continued system,
something is yielded for it: the positions, in the stored order, with the numbers of the first and last bin of a
longest cyclic run of liquid bins of `order`, this run being everything exactly if all bins are liquid; otherwise
nothing is yielded for the layer. -/
theorem C33_periodic_search (s : System) (box : ℚ × ℚ) (o : Opts) (hl : o.longest = true) (r cutoff : ℚ)
    (hc : getCutoff o.cutoff s = .ok cutoff) (hr : getRadius o.radius s = .ok r) (h0 : 0 ≤ r) (hrb : r < box.1)
    (hx : ∀ d ∈ s, 0 ≤ d.x ∧ d.x ≤ box.1)
    (order : ℚ → List ℕ) (hp : ∀ y, (order y).Perm (layerRows s y))
    (hs : ∀ y, (order y).Pairwise fun i j => (row s i).x < (row s j).x) :
    ∃ out, getInterface s (some box) o = .ok out ∧
      (out.map fun p => (row s p.1).y).Pairwise (· < ·) ∧
      (∀ p ∈ out, ∃ y start len, Within o.ylims.1 o.ylims.2 y ∧
        LongestRun (PeriodicLiquid s box.1 r cutoff o.bins) (order y) start len ∧
        (layerRows s y)[start]? = some p.1 ∧
        (layerRows s y)[(start + len - 1) % (order y).length]? = some p.2 ∧
        (len = (order y).length ↔ ∀ i ∈ order y, PeriodicLiquid s box.1 r cutoff o.bins i)) ∧
      (∀ j, PeriodicLiquid s box.1 r cutoff o.bins j → Within o.ylims.1 o.ylims.2 (row s j).y →
        ∃ p ∈ out, (row s p.1).y = (row s j).y) := by
  let P : ℚ → ℕ → Prop := fun y i => LiquidCell (ySlice s r box.1 y) r cutoff o.bins (row s i)
  have hP : ∀ y, ∀ i ∈ order y, P y i ↔ PeriodicLiquid s box.1 r cutoff o.bins i := by
    intro y i hi
    have him := (mem_layerRows s y i).mp ((hp y).mem_iff.mp hi)
    rw [periodicLiquid_iff s box.1 r cutoff o.bins h0 hrb hx i him.1, him.2]
  let g : ℚ → Option (ℕ × ℕ) := fun y =>
    (findEdges ((order y).map fun i => decide (P y i))).map fun e =>
      ((layerRows s y).getD e.1 0, (layerRows s y).getD e.2 0)
  have hout : getInterface s (some box) o = .ok ((yValues (s.map (·.y)) o.ylims.1 o.ylims.2).filterMap g) := by
    unfold getInterface
    rw [hc]
    simp only [bind, Except.bind, hr, hl, if_true]
    unfold longestConnected
    rw [if_neg (by rintro ⟨h, _⟩; linarith)]
    simp only [Except.ok.injEq]
    congr 1
    funext y
    have e1 := sortLayer_eq (hp y) (hs y)
    have e2 : filledCells _ (ySlice s r box.1 y) r cutoff o.bins = _ :=
      filledCells_eq (y := y) (box := box.1) (c := cutoff) (b := o.bins) (hp y) h0
    unfold layerRows at e1
    rw [e1, e2]
    rfl
  have hg : ∀ y p, g y = some p → (row s p.1).y = y ∧ ∃ start len,
      LongestRun (PeriodicLiquid s box.1 r cutoff o.bins) (order y) start len ∧
      (layerRows s y)[start]? = some p.1 ∧
      (layerRows s y)[(start + len - 1) % (order y).length]? = some p.2 ∧
      (len = (order y).length ↔ ∀ i ∈ order y, PeriodicLiquid s box.1 r cutoff o.bins i) := by
    intro y p h
    simp only [g, Option.map_eq_some_iff] at h
    obtain ⟨⟨e1, e2⟩, he, rfl⟩ := h
    obtain ⟨len, hr1, hr2, hr3⟩ := (findEdges_map (P y) (order y)).2 e1 e2 he
    have hlen := (hp y).length_eq
    have l1 : e1 < (layerRows s y).length := by rw [← hlen]; exact hr1.2.2.1
    have l2 : e2 < (layerRows s y).length := by
      rw [← hlen, hr2]; exact Nat.mod_lt _ (by have := hr1.2.2.1; omega)
    have g1 : (layerRows s y)[e1]? = some ((layerRows s y).getD e1 0) := by
      rw [List.getD_eq_getElem?_getD, List.getElem?_eq_getElem l1]; rfl
    have g2 : (layerRows s y)[e2]? = some ((layerRows s y).getD e2 0) := by
      rw [List.getD_eq_getElem?_getD, List.getElem?_eq_getElem l2]; rfl
    refine ⟨((mem_layerRows s y _).mp (List.mem_of_getElem? g1)).2, e1, len,
      (longestRun_congr (hP y) e1 len).mp hr1, g1, by rw [← hr2]; exact g2, ?_⟩
    rw [hr3]
    exact forall_congr' fun i => forall_congr' fun hi => hP y i hi
  refine ⟨_, hout, ?_, ?_, ?_⟩
  · rw [List.map_filterMap, List.pairwise_filterMap]
    refine (yValues_pairwise _ _ _).imp ?_
    intro y y' hlt z hz z' hz'
    simp only [Option.map_eq_some_iff] at hz hz'
    obtain ⟨p, hp, rfl⟩ := hz
    obtain ⟨p', hp', rfl⟩ := hz'
    rw [(hg y p hp).1, (hg y' p' hp').1]; exact hlt
  · intro p hpm
    obtain ⟨y, hy, hgp⟩ := List.mem_filterMap.mp hpm
    obtain ⟨_, start, len, rest⟩ := hg y p hgp
    exact ⟨y, start, len, ((mem_yValues _ _ _ _).mp hy).2, rest⟩
  · intro j hj hw
    have hjl := hj.1
    have hjm : j ∈ order (row s j).y := (hp _).mem_iff.mpr ((mem_layerRows s _ j).mpr ⟨hjl, rfl⟩)
    have hne : g (row s j).y ≠ none := by
      simp only [g, ne_eq, Option.map_eq_none_iff]
      intro hnone
      exact ((findEdges_map (P (row s j).y) (order (row s j).y)).1.mp hnone j hjm) ((hP _ j hjm).mpr hj)
    obtain ⟨p, hp'⟩ := Option.ne_none_iff_exists'.mp hne
    refine ⟨p, List.mem_filterMap.mpr ⟨(row s j).y, ?_, hp'⟩, (hg _ p hp').1⟩
    rw [mem_yValues]
    refine ⟨List.mem_map.mpr ⟨row s j, ?_, rfl⟩, hw⟩
    rw [row_eq_getElem s j hjl]; exact List.getElem_mem hjl

/-- **C34 (partial).** If every layer is stored in ascending x, the yielded row numbers are those of the first
and last bin of a longest cyclic run of liquid bins.  Missing: data in another order, for which the statement is
false (`C34_unsorted_counterexample`). -/
theorem C34_sorted_layers_partial (s : System) (box : ℚ × ℚ) (o : Opts) (hl : o.longest = true) (r cutoff : ℚ)
    (hc : getCutoff o.cutoff s = .ok cutoff) (hr : getRadius o.radius s = .ok r) (h0 : 0 ≤ r) (hrb : r < box.1)
    (hx : ∀ d ∈ s, 0 ≤ d.x ∧ d.x ≤ box.1)
    (hsort : ∀ i j, i < j → j < s.length → (row s i).y = (row s j).y → (row s i).x < (row s j).x) :
    ∃ out, getInterface s (some box) o = .ok out ∧
      ∀ p ∈ out, ∃ y start len,
        LongestRun (PeriodicLiquid s box.1 r cutoff o.bins) (layerRows s y) start len ∧
        (layerRows s y)[start]? = some p.1 ∧
        (layerRows s y)[(start + len - 1) % (layerRows s y).length]? = some p.2 := by
  obtain ⟨out, h1, _, h3, _⟩ := C33_periodic_search s box o hl r cutoff hc hr h0 hrb hx (layerRows s)
    (fun y => List.Perm.refl _) (by
      intro y
      have h1 : (layerRows s y).Pairwise (· < ·) := List.pairwise_lt_range.filter _
      refine List.Pairwise.imp_of_mem ?_ h1
      intro i j hi hj hlt
      have hi' := (mem_layerRows s y i).mp hi
      have hj' := (mem_layerRows s y j).mp hj
      exact hsort i j hlt hj'.1 (by rw [hi'.2, hj'.2]))
  refine ⟨out, h1, ?_⟩
  intro p hp
  obtain ⟨y, start, len, _, a, b, c, _⟩ := h3 p hp
  exact ⟨y, start, len, a, b, c⟩

/-- A layer of five bins stored in the order x = 4, 0, 1, 2, 3 (half a bin added), the last two of which are full. -/
def unsortedDemo : System :=
  [⟨9 / 2, 0, 0, []⟩, ⟨1 / 2, 0, 0, []⟩, ⟨3 / 2, 0, 0, []⟩, ⟨5 / 2, 0, 9, []⟩, ⟨7 / 2, 0, 9, []⟩]

/-- **C34 is false for unsorted layers.**  Rows 3 and 4 (x = 2.5, 3.5) are the only full bins, but rows 2 and 3
are returned: the positions in the sorted layer are used as positions in the stored order. -/
theorem C34_unsorted_counterexample :
    getInterface unsortedDemo (some (5, 1)) { longest := true, radius := some 1, cutoff := some 5 } = .ok [(2, 3)] ∧
    (row unsortedDemo 2).v = 0 ∧ (∀ i, i < 5 → (5 ≤ (row unsortedDemo i).v ↔ i = 3 ∨ i = 4)) := by
  decide +kernel

/-- The same layer in order. -/
def sortedDemo : System :=
  [⟨1 / 2, 0, 9, []⟩, ⟨3 / 2, 0, 0, []⟩, ⟨5 / 2, 0, 0, []⟩, ⟨7 / 2, 0, 9, []⟩, ⟨9 / 2, 0, 9, []⟩]

example : getInterface sortedDemo (some (5, 1)) { longest := true, radius := some 1, cutoff := some 5 } = .ok [(3, 0)] ∧
    (∀ d ∈ sortedDemo, 0 ≤ d.x ∧ d.x ≤ 5) ∧
    (∀ j, j < 5 → ∀ i, i < j → (row sortedDemo i).y = (row sortedDemo j).y → (row sortedDemo i).x < (row sortedDemo j).x) := by
  decide +kernel

/-- **C36 is false in general.**  Moving the whole map by 10 along x changes the result of the periodic search:
the copies at the boundary are selected by absolute position. -/
theorem C36_translation_counterexample :
    let o : Opts := { longest := true, radius := some 1, cutoff := some 5, bins := 2 }
    getInterface sortedDemo (some (5, 1)) o = .ok [(4, 4)] ∧
    getInterface (shiftX 10 sortedDemo) (some (5, 1)) o = .ok [] := by
  decide +kernel

/-- **C36 (partial).** As long as both the map and its translate lie between 0 and the box length, the result
of the periodic search is the same.  Missing: other translations (false, see above). -/
theorem C36_translation_inside_partial (s : System) (a : ℚ) (box : ℚ × ℚ) (o : Opts) (hl : o.longest = true)
    (r cutoff : ℚ) (hc : getCutoff o.cutoff s = .ok cutoff) (hr : o.radius = some r) (h0 : 0 ≤ r)
    (hx : ∀ d ∈ s, 0 ≤ d.x ∧ d.x ≤ box.1) (hx' : ∀ d ∈ s, 0 ≤ d.x + a ∧ d.x + a ≤ box.1) :
    getInterface (shiftX a s) (some box) o = getInterface s (some box) o := by
  have hcut : getCutoff o.cutoff (shiftX a s) = .ok cutoff := by
    rw [← hc]; unfold getCutoff; simp [shiftX, Function.comp_def]
  have hlen : (shiftX a s).length = s.length := by simp [shiftX]
  unfold getInterface
  rw [hcut, hc]
  simp only [bind, Except.bind, hr, getRadius, hl, if_true]
  unfold longestConnected
  have hY : (shiftX a s).map (·.y) = s.map (·.y) := by simp [shiftX, Function.comp_def]
  have hne : ¬ (r < 0 ∧ yValues (s.map (·.y)) o.ylims.1 o.ylims.2 ≠ []) := by rintro ⟨h, _⟩; linarith
  rw [hY, if_neg hne, if_neg hne]
  simp only [Except.ok.injEq]
  congr 1
  funext y
  have hidx : (List.range (shiftX a s).length).filter (fun i => decide ((row (shiftX a s) i).y = y)) =
      (List.range s.length).filter fun i => decide ((row s i).y = y) := by
    rw [hlen]
    apply List.filter_congr
    intro i hi
    rw [row_shift a s i (by simpa using hi)]
  rw [hidx]
  -- the sorted layer is the translated one
  have hmapL : ((List.range s.length).filter fun i => decide ((row s i).y = y)).map (row (shiftX a s)) =
      (((List.range s.length).filter fun i => decide ((row s i).y = y)).map (row s)).map
        fun c => { c with x := c.x + a } := by
    rw [List.map_map]
    apply List.map_congr_left
    intro i hi
    rw [List.mem_filter, List.mem_range] at hi
    exact row_shift a s i hi.1
  have hsortS : ∀ l : System, sortLayer (l.map fun c => { c with x := c.x + a }) =
      (sortLayer l).map fun c => { c with x := c.x + a } := by
    intro l
    unfold sortLayer
    symm
    apply List.map_insertionSort
    intro p _ q _
    simp only [lexLE, add_lt_add_iff_right]
  rw [hmapL, hsortS]
  congr 2
  -- the filled cells agree
  unfold filledCells
  rw [List.map_map]
  apply List.map_congr_left
  intro c hcm
  rw [mem_sortLayer] at hcm
  obtain ⟨i, hi, rfl⟩ := List.mem_map.mp hcm
  rw [List.mem_filter, List.mem_range] at hi
  obtain ⟨hil, hiy⟩ := hi
  simp only [decide_eq_true_eq] at hiy
  subst hiy
  have hin : row s i ∈ s := by rw [row_eq_getElem s i hil]; exact List.getElem_mem hil
  simp only [Function.comp]
  have hm1 : row s i ∈ ySlice s r box.1 (row s i).y := by
    unfold ySlice; rw [List.mem_append, List.mem_filter]; left; exact ⟨hin, by simp [h0]⟩
  have hm2 : ({ row s i with x := (row s i).x + a } : Cell) ∈ ySlice (shiftX a s) r box.1 (row s i).y := by
    unfold ySlice; rw [List.mem_append, List.mem_filter]; left
    exact ⟨List.mem_map.mpr ⟨row s i, hin, rfl⟩, by simp [h0]⟩
  rw [cellIsDroplet_eq (indexOf _ _) _ (List.idxOf_lt_length_of_mem hm2), row_indexOf hm2,
    cellIsDroplet_eq (indexOf _ _) _ (List.idxOf_lt_length_of_mem hm1), row_indexOf hm1]
  apply decide_eq_decide.mpr
  unfold LiquidCell
  refine and_congr_right fun _ => ?_
  obtain ⟨a0, a1⟩ := hx _ hin
  obtain ⟨b0, b1⟩ := hx' _ hin
  have k2 := countP_ySlice (shiftX a s) r cutoff box.1 h0 { row s i with x := (row s i).x + a } b0 b1
  simp only at k2
  rw [countP_ySlice s r cutoff box.1 h0 (row s i) a0 a1, k2]
  have hk : ∀ k : ℤ, (shiftX a s).countP (fun d => counts r cutoff { row s i with x := (row s i).x + a } (image box.1 k d)) =
      s.countP fun d => counts r cutoff (row s i) (image box.1 k d) := by
    intro k
    unfold shiftX
    rw [List.countP_map]
    congr 1
    funext d
    simp only [Function.comp, counts, Near, image]
    apply decide_eq_decide.mpr
    rw [show d.x + a + k * box.1 - ((row s i).x + a) = d.x + k * box.1 - (row s i).x by ring]
  rw [hk, hk, hk]

/-! ## C35 -/

/-- **C35 is false when bins are flatter than wide.**  The bins are 2 wide and 1 high; the smallest distance
is 1 but the radius used is 2. -/
theorem C35_flat_bins_counterexample :
    let s : System := [⟨0, 0, 1, []⟩, ⟨2, 0, 2, []⟩, ⟨0, 1, 3, []⟩, ⟨2, 1, 4, []⟩]
    getRadius none s = .ok 2 ∧ MinGap (s.map (·.y)) 1 := by
  refine ⟨by decide +kernel, ⟨0, by decide +kernel, 1, by decide +kernel, by decide +kernel, by decide +kernel⟩, ?_⟩
  decide +kernel

/-- **C35 (partial).** The default radius is the smallest difference between two x positions; it is the smallest
distance between bins at different positions provided the heights of layers differ by at least as much. -/
theorem C35_default_radius_partial (s : System) (r : ℚ) (h : getRadius none s = .ok r) :
    MinGap (s.map (·.x)) r ∧
    ((∀ a ∈ s, ∀ b ∈ s, a.y < b.y → r ≤ b.y - a.y) →
      ∀ a ∈ s, ∀ b ∈ s, (a.x, a.y) ≠ (b.x, b.y) →
        (r : ℝ) ≤ Real.sqrt (((b.x : ℝ) - a.x) ^ 2 + ((b.y : ℝ) - a.y) ^ 2)) := by
  have hg := (minGap_iff _ _).mp h
  refine ⟨hg, ?_⟩
  intro hy a ha b hb hne
  obtain ⟨⟨p, _, q, _, hpq, hr⟩, h2⟩ := hg
  have hr0 : 0 < r := by linarith
  apply Real.le_sqrt_of_sq_le
  have key : r ^ 2 ≤ (b.x - a.x) ^ 2 + (b.y - a.y) ^ 2 := by
    have hxm : ∀ c ∈ s, c.x ∈ s.map (·.x) := fun c hc => List.mem_map_of_mem hc
    by_cases hxe : a.x = b.x
    · rcases lt_trichotomy a.y b.y with hlt | he | hgt
      · nlinarith [hy a ha b hb hlt, sq_nonneg (b.x - a.x)]
      · exact absurd (by rw [hxe, he]) hne
      · nlinarith [hy b hb a ha hgt, sq_nonneg (b.x - a.x)]
    · rcases lt_or_gt_of_ne hxe with hlt | hgt
      · nlinarith [h2 _ (hxm a ha) _ (hxm b hb) hlt, sq_nonneg (b.y - a.y)]
      · nlinarith [h2 _ (hxm b hb) _ (hxm a ha) hgt, sq_nonneg (b.y - a.y)]
  exact_mod_cast key

example : getRadius none [⟨0, 0, 1, []⟩, ⟨2, 0, 2, []⟩, ⟨0, 3, 3, []⟩, ⟨2, 3, 4, []⟩] = .ok 2 := by decide +kernel

/-- **C33.** The search for the longest stretch is refused for a map whose shape or spacing is not set. -/
theorem C33_needs_the_box (s : System) (o : Opts) (hl : o.longest = true) (r cutoff : ℚ)
    (hc : getCutoff o.cutoff s = .ok cutoff) (hr : getRadius o.radius s = .ok r) :
    getInterface s none o = .error .valueError := by
  unfold getInterface
  rw [hc]
  simp only [bind, Except.bind, hr, hl, if_true]

/-- **C35.** There is a default radius exactly if the bins have two different x positions; otherwise the search is refused. -/
theorem C35_default_radius_iff (s : System) :
    ((∃ r, getRadius none s = .ok r) ↔ ∃ a ∈ s, ∃ b ∈ s, a.x ≠ b.x) ∧
    ((¬ ∃ a ∈ s, ∃ b ∈ s, a.x ≠ b.x) → getRadius none s = .error .valueError) := by
  have key : npDiff (npUnique (s.map (·.x))) = [] ↔ ¬ ∃ a ∈ s, ∃ b ∈ s, a.x ≠ b.x := by
    have hm : ∀ v, v ∈ npUnique (s.map (·.x)) ↔ ∃ a ∈ s, a.x = v := fun v => by rw [mem_npUnique]; simp
    have hs := pairwise_npUnique (s.map (·.x))
    generalize npUnique (s.map (·.x)) = u at hm hs
    match u with
    | [] =>
      refine ⟨fun _ ⟨a, ha, _⟩ => ?_, fun _ => rfl⟩
      have := (hm a.x).mpr ⟨a, ha, rfl⟩; simp at this
    | [v] =>
      refine ⟨fun _ ⟨a, ha, b, hb, hne⟩ => hne ?_, fun _ => rfl⟩
      have h1 := (hm a.x).mpr ⟨a, ha, rfl⟩; have h2 := (hm b.x).mpr ⟨b, hb, rfl⟩
      simp only [List.mem_singleton] at h1 h2; rw [h1, h2]
    | v :: w :: t =>
      refine ⟨fun h => by simp [npDiff] at h, fun h => absurd ?_ h⟩
      obtain ⟨a, ha, e1⟩ := (hm v).mp (by simp)
      obtain ⟨b, hb, e2⟩ := (hm w).mp (by simp)
      refine ⟨a, ha, b, hb, ?_⟩
      rw [e1, e2]
      rw [List.pairwise_cons] at hs
      exact ne_of_lt (hs.1 w (by simp))
  have hr : getRadius none s = npMin (npDiff (npUnique (s.map (·.x)))) := rfl
  refine ⟨⟨?_, ?_⟩, ?_⟩
  · rintro ⟨r, h⟩
    by_contra hn
    rw [hr, key.mpr hn] at h
    simp [npMin] at h
  · intro h
    rw [hr]
    exact npMin_exists fun e => key.mp e h
  · intro hn
    rw [hr, key.mpr hn]; rfl

/-- **C33.** The searches return for exactly these arguments: either the map has bins, no cutoff is given and all values are equal (then nothing is
found); or there are a cutoff (given, or the map has bins) and a radius (given, or the bins have two different x positions), and, for the search of the longest
stretch, shape and spacing of the map are set and the radius is not negative unless no layer is within the limits. -/
theorem C33_returns_iff (s : System) (box : Option (ℚ × ℚ)) (o : Opts) :
    (∃ out, getInterface s box o = .ok out) ↔
      (o.cutoff = none ∧ s ≠ [] ∧ ∀ a ∈ s, ∀ b ∈ s, a.v = b.v) ∨
      ((o.cutoff ≠ none ∨ s ≠ []) ∧ (o.radius ≠ none ∨ ∃ a ∈ s, ∃ b ∈ s, a.x ≠ b.x) ∧
        (o.longest = true → box ≠ none ∧
          ((∀ r, o.radius = some r → 0 ≤ r) ∨ ∀ c ∈ s, ¬ Within o.ylims.1 o.ylims.2 c.y))) := by
  -- the radius
  have hrad : (∃ r, getRadius o.radius s = .ok r) ↔ (o.radius ≠ none ∨ ∃ a ∈ s, ∃ b ∈ s, a.x ≠ b.x) := by
    cases h : o.radius with
    | some r => exact ⟨fun _ => Or.inl (by simp), fun _ => ⟨r, rfl⟩⟩
    | none => rw [(C35_default_radius_iff s).1]; simp
  have hpos : ∀ r, getRadius o.radius s = .ok r → (r < 0 ↔ ∃ q, o.radius = some q ∧ q < 0) := by
    intro r hr
    cases h : o.radius with
    | some q => rw [h] at hr; have : q = r := Except.ok.inj hr; subst this; simp
    | none =>
      rw [h] at hr
      obtain ⟨⟨p, _, q, _, hpq, hd⟩, _⟩ := (C35_default_radius_partial s r hr).1
      constructor
      · intro hlt; linarith
      · rintro ⟨q, e, _⟩; cases e
  have hlay : yValues (s.map (·.y)) o.ylims.1 o.ylims.2 = [] ↔ ∀ c ∈ s, ¬ Within o.ylims.1 o.ylims.2 c.y := by
    unfold yValues
    rw [List.filter_eq_nil_iff]
    constructor
    · intro h c hc hw
      exact h c.y ((mem_npUnique _ _).mpr (List.mem_map_of_mem hc)) ((within_iff _ _ _).mpr hw)
    · intro h y hy hw
      obtain ⟨c, hc, rfl⟩ := List.mem_map.mp ((mem_npUnique _ _).mp hy)
      exact h c hc ((within_iff _ _ _).mp hw)
  -- after the cutoff
  have main : ∀ cutoff, getCutoff o.cutoff s = .ok cutoff → ((∃ out, getInterface s box o = .ok out) ↔
      (o.radius ≠ none ∨ ∃ a ∈ s, ∃ b ∈ s, a.x ≠ b.x) ∧ (o.longest = true → box ≠ none ∧
          ((∀ r, o.radius = some r → 0 ≤ r) ∨ ∀ c ∈ s, ¬ Within o.ylims.1 o.ylims.2 c.y))) := by
    intro cutoff hc
    unfold getInterface
    rw [hc]
    simp only []
    cases hr : getRadius o.radius s with
    | error e =>
      have hn : ¬ (o.radius ≠ none ∨ ∃ a ∈ s, ∃ b ∈ s, a.x ≠ b.x) := by rw [← hrad, hr]; simp
      simp only [bind, Except.bind]
      constructor
      · rintro ⟨_, h⟩; cases h
      · rintro ⟨h, _⟩; exact absurd h hn
    | ok r =>
      have hy := hrad.mp ⟨r, hr⟩
      simp only [bind, Except.bind]
      by_cases hl : o.longest = true
      · rw [if_pos hl]
        cases box with
        | none => simp [hl]
        | some b =>
          simp only [longestConnected]
          by_cases hn : r < 0 ∧ yValues (s.map (·.y)) o.ylims.1 o.ylims.2 ≠ []
          · rw [if_pos hn]
            constructor
            · rintro ⟨_, h⟩; cases h
            · rintro ⟨_, h⟩
              obtain ⟨q, hq, hq0⟩ := (hpos r hr).mp hn.1
              rcases (h hl).2 with h | h
              · have := h q hq; linarith
              · exact absurd (hlay.mpr h) hn.2
          · rw [if_neg hn]
            refine ⟨fun _ => ⟨hy, fun _ => ⟨by simp, ?_⟩⟩, fun _ => ⟨_, rfl⟩⟩
            by_cases h0 : r < 0
            · exact Or.inr (hlay.mp (by by_contra h; exact hn ⟨h0, h⟩))
            · refine Or.inl fun q hq => ?_
              by_contra hq0
              exact h0 ((hpos r hr).mpr ⟨q, hq, not_le.mp hq0⟩)
      · rw [if_neg hl]
        exact ⟨fun _ => ⟨hy, fun h => absurd h hl⟩, fun _ => ⟨_, rfl⟩⟩
  cases hcut : o.cutoff with
  | some c =>
    rw [main c (by rw [hcut]; rfl)]
    simp
  | none =>
    by_cases hs : s = []
    · have : getInterface s box o = .error .valueError := by
        unfold getInterface; rw [hcut, hs]; rfl
      rw [this]
      simp [hs]
    · obtain ⟨lo, hi, ⟨a, ha, ea⟩, ⟨b, hb, eb⟩, hle, h1, h2⟩ := C32_default_cutoff s box o hcut hs
      by_cases he : lo = hi
      · rw [h2 he]
        refine ⟨fun _ => Or.inl ⟨rfl, hs, fun c hc d hd => ?_⟩, fun _ => ⟨_, rfl⟩⟩
        have := hle c hc; have := hle d hd
        linarith
      · rw [main _ (h1 he)]
        refine ⟨fun h => Or.inr ⟨Or.inr hs, h⟩, ?_⟩
        rintro (⟨_, _, h⟩ | ⟨_, h⟩)
        · exact absurd (by rw [← ea, ← eb]; exact h a ha b hb) he
        · exact h

example : let s : System := [⟨0, 0, 5, []⟩, ⟨1, 0, 0, []⟩]
    getInterface s none { longest := true } = .error .valueError ∧ getInterface s (some (2, 1)) { longest := true, bins := 0 } = .ok [(0, 0)] ∧
    getInterface s (some (2, 1)) { longest := true, radius := some (-1) } = .error .indexError ∧
    getInterface [⟨0, 0, 5, []⟩, ⟨0, 1, 0, []⟩] none {} = .error .valueError ∧ getInterface [] none {} = .error .valueError := by decide +kernel

/-! ## C37 -/

/-- **C37.** What the angle is: for a layer above the floor (`dy > 0`) it lies strictly between 0° and 180°
and is the direction of the vector `(dx, dy)`. -/
theorem C37_angle_meaning (dy dx : ℚ) (h : 0 < dy) :
    0 < angleDeg dy dx ∧ angleDeg dy dx < 180 ∧
    Real.sqrt ((dx : ℝ) ^ 2 + (dy : ℝ) ^ 2) * Real.cos (angleDeg dy dx * Real.pi / 180) = dx ∧
    Real.sqrt ((dx : ℝ) ^ 2 + (dy : ℝ) ^ 2) * Real.sin (angleDeg dy dx * Real.pi / 180) = dy := by
  have hdy : (0 : ℝ) < dy := by exact_mod_cast h
  have hpi := Real.pi_pos
  let z : ℂ := ⟨(dx : ℝ), (dy : ℝ)⟩
  have hz : z ≠ 0 := by
    intro hz
    have := congrArg Complex.im hz
    simp only [z, Complex.zero_im] at this
    linarith
  have harg : angleDeg dy dx = Complex.arg z * 180 / Real.pi := rfl
  have hback : angleDeg dy dx * Real.pi / 180 = Complex.arg z := by
    rw [harg]; field_simp
  have hpos : 0 < Complex.arg z := by
    have h0 : 0 ≤ Complex.arg z := Complex.arg_nonneg_iff.mpr hdy.le
    rcases h0.lt_or_eq with h1 | h1
    · exact h1
    · exfalso
      have := (Complex.arg_eq_zero_iff.mp h1.symm).2
      simp only [z] at this
      linarith
  have hlt : Complex.arg z < Real.pi := by
    rcases (Complex.arg_le_pi z).lt_or_eq with h1 | h1
    · exact h1
    · exfalso
      have := (Complex.arg_eq_pi_iff.mp h1).2
      simp only [z] at this
      linarith
  have hnorm : ‖z‖ = Real.sqrt ((dx : ℝ) ^ 2 + (dy : ℝ) ^ 2) := by
    rw [Complex.norm_def, Complex.normSq_mk]; congr 1; ring
  refine ⟨?_, ?_, ?_, ?_⟩
  · rw [harg]; positivity
  · rw [harg, div_lt_iff₀ hpi]; nlinarith
  · rw [hback, ← hnorm]; exact Complex.norm_mul_cos_arg z
  · rw [hback, ← hnorm]; exact Complex.norm_mul_sin_arg z

/-- **C37.** The floor layer is the layer of the data closest to the given floor. -/
theorem C37_floor_layer (s : System) (f y : ℚ) (h : floorOf (some f) s = .ok (some y)) :
    (∃ c ∈ s, c.y = y) ∧ ∀ c ∈ s, |y - f| ≤ |c.y - f| := by
  unfold floorOf at h
  simp only at h
  cases hc : closest f (s.map (·.y)) with
  | error e => rw [hc] at h; simp [Except.map] at h
  | ok z =>
    rw [hc] at h
    simp only [Except.map, Except.ok.injEq, Option.some.injEq] at h
    subst h
    obtain ⟨h1, h2⟩ := closest_spec f _ _ hc
    exact ⟨by simpa using h1, fun c hc => h2 _ (List.mem_map_of_mem hc)⟩

/-- **C37.** With liquid layers `y0` (the lowest one at or above the floor layer, and the floor layer itself if
a floor is given) and `y1` (the highest one with `y0 < y1 ≤ y0 + height`), the left angle is that of the vector
between the left edges and the right angle that of the vector between the right edges seen in a mirror. -/
theorem C37_contact_angle (s : System) (box : Option (ℚ × ℚ)) (height : ℚ) (floor : Option ℚ) (o : Opts)
    (r c : ℚ) (yf : Option ℚ) (hset : Setting s o floor r c yf) (y0 xl0 xr0 y1 xl1 xr1 : ℚ)
    (h0 : LiquidLayer s r c o.bins y0 xl0 xr0) (hyf : ∀ z, yf = some z → y0 = z)
    (hlow : ∀ y xl xr, LiquidLayer s r c o.bins y xl xr → (∀ z, yf = some z → z ≤ y) → y0 ≤ y)
    (h1 : LiquidLayer s r c o.bins y1 xl1 xr1) (h01 : y0 < y1) (hh : y1 - y0 ≤ height)
    (hhigh : ∀ y xl xr, LiquidLayer s r c o.bins y xl xr → y - y0 ≤ height → y ≤ y1) :
    contactAngle s box height floor o =
      .ok (some (angleDeg (y1 - y0) (xl1 - xl0), angleDeg (y1 - y0) (-(xr1 - xr0)))) := by
  rw [hset.angle box height]
  have hL := isLayers_outsideIn s r c o.bins yf none
  generalize (outsideIn s r c o.bins (yf, none)).map (triple s) = ts at hL
  have w0 : ∀ y, y0 ≤ y → Within yf none y := by
    intro y hy
    refine ⟨fun a ha => ?_, by simp⟩
    rw [← hyf a ha]; exact hy
  have m0 := hL.complete _ _ _ h0 (w0 _ (le_refl _))
  have m1 := hL.complete _ _ _ h1 (w0 _ h01.le)
  cases ts with
  | nil => simp at m0
  | cons t ts =>
    obtain ⟨s1, s2⟩ := List.pairwise_cons.mp hL.sorted
    have ht : t = (y0, xl0, xr0) := by
      rcases List.mem_cons.mp m0 with h | h
      · exact h.symm
      · exfalso
        obtain ⟨tl, tw⟩ := hL.layer t (by simp)
        have := hlow _ _ _ tl tw.1
        have h' := s1 _ h
        simp only at h'
        linarith
    subst ht
    have m1' : (y1, xl1, xr1) ∈ ts := by
      rcases List.mem_cons.mp m1 with h | h
      · simp only [Prod.mk.injEq] at h; rw [h.1] at h01; exact absurd h01 (lt_irrefl _)
      · exact h
    have hloop := angleLoopT_some (height := height) (ymin := y0) s2 none (y1, xl1, xr1) m1' hh (by
      intro u hu hle
      exact hhigh _ _ _ (hL.layer u (by simp [hu])).1 hle)
    have hif : ¬ (floor.isSome = true ∧ yf ≠ some y0) := by
      rintro ⟨hs, hne⟩
      have := hset.floorLayer
      cases floor with
      | none => simp at hs
      | some f =>
        unfold floorOf at this
        simp only at this
        cases hc : closest f (s.map (·.y)) with
        | error e => rw [hc] at this; simp [Except.map] at this
        | ok z =>
          rw [hc] at this
          simp only [Except.map, Except.ok.injEq] at this
          exact hne (by rw [← this, hyf z this.symm])
    simp only [angleOf]
    rw [if_neg hif, hloop]
    rfl

/-- **C37 (partial).** `(None, None)` is returned when a floor is given, its layer has no liquid, and some layer
above does.  Missing: if no layer at or above the floor has liquid the call raises `StopIteration` instead
(`C37_no_liquid_raises`), and with liquid in a single layer only it raises `UnboundLocalError`
(`C37_single_layer_raises`). -/
theorem C37_no_liquid_in_floor_partial (s : System) (box : Option (ℚ × ℚ)) (height : ℚ) (f : ℚ) (o : Opts)
    (r c yf : ℚ) (hset : Setting s o (some f) r c (some yf))
    (hno : ∀ i, Liquid s r c o.bins i → (row s i).y ≠ yf) (hex : ∃ i, Liquid s r c o.bins i ∧ yf ≤ (row s i).y) :
    contactAngle s box height (some f) o = .ok none := by
  rw [hset.angle box height]
  have hL := isLayers_outsideIn s r c o.bins (some yf) none
  have hex' : (outsideIn s r c o.bins (some yf, none)).map (triple s) ≠ [] := by
    obtain ⟨i, hi, hy⟩ := hex
    obtain ⟨p, hp, _⟩ := (outsideIn_spec s r c o.bins (some yf) none).2.2 i hi ⟨by simpa using hy, by simp⟩
    intro h
    rw [List.map_eq_nil_iff] at h
    rw [h] at hp; simp at hp
  generalize (outsideIn s r c o.bins (some yf, none)).map (triple s) = ts at hL hex'
  cases ts with
  | nil => exact absurd rfl hex'
  | cons t ts =>
    obtain ⟨⟨⟨i, hi, hy, _⟩, _⟩, _⟩ := hL.layer t (by simp)
    simp only [angleOf, Option.isSome_some]
    rw [if_pos]
    refine ⟨trivial, ?_⟩
    intro h
    rw [Option.some.injEq] at h
    exact hno i hi (by rw [hy, h])

/-- **C37, finding.** Without any liquid at or above the floor the call fails with `StopIteration`. -/
theorem C37_no_liquid_raises (s : System) (box : Option (ℚ × ℚ)) (height : ℚ) (floor : Option ℚ) (o : Opts)
    (r c : ℚ) (yf : Option ℚ) (hset : Setting s o floor r c yf)
    (hno : ∀ i, Liquid s r c o.bins i → ∃ z, yf = some z ∧ (row s i).y < z) :
    contactAngle s box height floor o = .error .stopIteration := by
  rw [hset.angle box height]
  have hL := isLayers_outsideIn s r c o.bins yf none
  generalize (outsideIn s r c o.bins (yf, none)).map (triple s) = ts at hL
  cases ts with
  | nil => rfl
  | cons t ts =>
    exfalso
    obtain ⟨⟨⟨i, hi, hy, _⟩, _⟩, hw⟩ := hL.layer t (by simp)
    obtain ⟨z, hz, hlt⟩ := hno i hi
    have := hw.1 z hz
    rw [hy] at hlt
    linarith

/-- **C37, finding.** If no other liquid layer lies within the height the call fails with
`UnboundLocalError`. -/
theorem C37_single_layer_raises (s : System) (box : Option (ℚ × ℚ)) (height : ℚ) (floor : Option ℚ) (o : Opts)
    (r c : ℚ) (yf : Option ℚ) (hset : Setting s o floor r c yf) (y0 xl0 xr0 : ℚ)
    (h0 : LiquidLayer s r c o.bins y0 xl0 xr0) (hyf : ∀ z, yf = some z → y0 = z)
    (honly : ∀ y xl xr, LiquidLayer s r c o.bins y xl xr → y = y0 ∨ height < y - y0)
    (hheight : 0 ≤ height) :
    contactAngle s box height floor o = .error .unboundLocalError := by
  rw [hset.angle box height]
  have hL := isLayers_outsideIn s r c o.bins yf none
  generalize (outsideIn s r c o.bins (yf, none)).map (triple s) = ts at hL
  have m0 := hL.complete _ _ _ h0 ⟨fun a ha => (hyf a ha).ge, by simp⟩
  cases ts with
  | nil => simp at m0
  | cons t ts =>
    obtain ⟨s1, s2⟩ := List.pairwise_cons.mp hL.sorted
    have ht : t.1 = y0 := by
      rcases List.mem_cons.mp m0 with h | h
      · rw [← h]
      · obtain ⟨tl, _⟩ := hL.layer t (by simp)
        rcases honly _ _ _ tl with h' | h'
        · exact h'
        · have := s1 _ h
          simp only at this
          linarith
    have hloop : angleLoopT height t.1 none ts = .error .unboundLocalError := by
      apply angleLoopT_none
      intro u hu hle
      obtain ⟨ul, _⟩ := hL.layer u (by simp [hu])
      have hlt := s1 u hu
      rcases honly _ _ _ ul with h' | h'
      · rw [ht, h'] at hlt; exact lt_irrefl _ hlt
      · rw [ht] at hle; linarith
    have hif : ¬ (floor.isSome = true ∧ yf ≠ some t.1) := by
      rintro ⟨hs, hne⟩
      have := hset.floorLayer
      cases floor with
      | none => simp at hs
      | some f =>
        unfold floorOf at this
        simp only at this
        cases hc : closest f (s.map (·.y)) with
        | error e => rw [hc] at this; simp [Except.map] at this
        | ok z =>
          rw [hc] at this
          simp only [Except.map, Except.ok.injEq] at this
          exact hne (by rw [← this, ht, hyf z this.symm])
    simp only [angleOf]
    rw [if_neg hif, hloop]
    rfl

/-- **C37.** The mirror image of a map has the two angles swapped (all options, including defaults). -/
theorem C37_mirror (s : System) (box : Option (ℚ × ℚ)) (height : ℚ) (floor : Option ℚ) (o : Opts)
    (r c : ℚ) (yf : Option ℚ) (hset : Setting s o floor r c yf) :
    contactAngle (mirror s) box height floor o =
      (contactAngle s box height floor o).map fun res => res.map Prod.swap := by
  have hset' : Setting (mirror s) o floor r c yf := by
    refine ⟨hset.method, by rw [getCutoff_mirror]; exact hset.cutoff, by rw [getRadius_mirror]; exact hset.radius, ?_⟩
    have : (mirror s).map (·.y) = s.map (·.y) := by simp [mirror, Function.comp_def]
    rw [← hset.floorLayer]
    unfold floorOf
    rw [this]
  rw [hset.angle box height, hset'.angle box height, ← angleOf_mirror]
  congr 1
  exact isLayers_unique (isLayers_outsideIn _ _ _ _ _ _) (isLayers_mirror (isLayers_outsideIn _ _ _ _ _ _))

/-- A droplet of two layers used to show that the hypotheses can be met. -/
def dropDemo : System :=
  [⟨0, 0, 5, []⟩, ⟨1, 0, 5, []⟩, ⟨2, 0, 5, []⟩, ⟨3, 0, 5, []⟩, ⟨0, 1, 0, []⟩, ⟨1, 1, 5, []⟩, ⟨2, 1, 5, []⟩, ⟨3, 1, 0, []⟩]

example : Setting dropDemo {} (some (1 / 10)) 1 (5 / 2) (some 0) :=
  ⟨rfl, by decide +kernel, by decide +kernel, by decide +kernel⟩

/-- Both angles of the demo droplet are 45°. -/
example : contactAngle dropDemo none 2 (some (1 / 10)) {} = .ok (some (angleDeg 1 1, angleDeg 1 1)) := by
  have hset : Setting dropDemo {} (some (1 / 10)) 1 (5 / 2) (some 0) :=
    ⟨rfl, by decide +kernel, by decide +kernel, by decide +kernel⟩
  have h : outsideIn dropDemo 1 (5 / 2) 1 (some 0, none) = [(0, 3), (5, 6)] := by decide +kernel
  rw [hset.angle none 2]
  have h' : outsideIn dropDemo 1 (5 / 2) ({} : Opts).bins (some 0, none) = [(0, 3), (5, 6)] := h
  rw [h']
  have ht : [(0, 3), (5, 6)].map (triple dropDemo) = [((0 : ℚ), (0 : ℚ), (3 : ℚ)), (1, 1, 2)] := by decide +kernel
  rw [ht]
  have hl : angleLoopT 2 0 none [((1 : ℚ), (1 : ℚ), (2 : ℚ))] = .ok ((1, 2), 1) := by decide +kernel
  simp only [angleOf, Option.isSome_some, hl, Except.map, getAngles]
  norm_num

end Strata.Interface
