import Verif.Model.RecenterEdges
import Verif.Spec.RecenterEdges
import Verif.Props.SpreadingMaps
import Verif.Props.Recenter
/-!
# Recentring at the contact line of the spreading analysis: C137
-/
namespace Strata.Driver
open Strata Strata.Flow Strata.Average Strata.Interface Strata.Spreading Strata.Spec Strata.SpreadingFiles

/-- One piece away from the sides: the longest periodic stretch is the piece. -/
theorem stretch_of_piece {wet : ℕ → Prop} {nx a b start len : ℕ} (h : LongestStretch wet nx start len) (hp : OnePiece wet nx) (ha : a < nx) (hb : b < nx) (hwa : wet a) (hwb : wet b)
    (hout : ∀ k, k < nx → wet k → a ≤ k ∧ k ≤ b) (hgap : b + 1 < a + nx) : start = a ∧ (start + len - 1) % nx = b := by
  obtain ⟨h1, h2, h3, h4, h5⟩ := h
  have hab : a ≤ b := (hout b hb hwb).1
  have hlen : b - a + 1 ≤ len := h5 a (b - a + 1) (by omega) fun t ht => by
    rw [Nat.mod_eq_of_lt (by omega)]
    exact hp a b (a + t) (by omega) (by omega) hb hwa hwb
  have hs := h4 0 (by omega)
  rw [Nat.add_zero, Nat.mod_eq_of_lt h3] at hs
  obtain ⟨s1, s2⟩ := hout start h3 hs
  have hle : len ≤ b - start + 1 := by
    by_contra hc
    have hw := h4 (b - start + 1) (by omega)
    rw [show start + (b - start + 1) = b + 1 by omega] at hw
    rcases Nat.lt_or_ge (b + 1) nx with hlt | hge
    · rw [Nat.mod_eq_of_lt hlt] at hw
      have := (hout _ hlt hw).2
      omega
    · have e : b + 1 = nx := by omega
      rw [e, Nat.mod_self] at hw
      have := (hout 0 (by omega) hw).1
      omega
  have e : start = a := by omega
  refine ⟨e, ?_⟩
  rw [Nat.mod_eq_of_lt (by omega)]
  omega

/-- Away from the sides the periodic images do not matter. -/
theorem liquid_clear {s : System} {M : ℕ → ℕ → ℚ} {nx ny : ℕ} {dx dy x1 y1 : ℚ} (h : GridCells s M nx ny dx dy x1 y1) (hdx : 0 < dx) {r c : ℚ} (hr : 0 ≤ r) (hclear : ClearOfSides M nx ny dx r c)
    (bins : ℤ) (t : ℕ) : PeriodicLiquid s ((nx : ℤ) * dx) r c bins t ↔ Liquid s r c bins t := by
  unfold PeriodicLiquid Liquid
  refine and_congr_right fun ht => and_congr_right fun hv => ?_
  have hset : {p : ℕ × ℤ | p.1 < s.length ∧ p ≠ (t, 0) ∧ c ≤ (row s p.1).v ∧ Near r (row s t) (Strata.Interface.image ((nx : ℤ) * dx) p.2 (row s p.1))} =
      (fun j : ℕ => ((j, 0) : ℕ × ℤ)) '' {j : ℕ | j < s.length ∧ j ≠ t ∧ c ≤ (row s j).v ∧ Near r (row s t) (row s j)} := by
    ext ⟨j, b⟩
    rw [Set.mem_setOf_eq, Set.mem_image]
    constructor
    · rintro ⟨h1, h2, h3, h4⟩
      simp only at h1 h3 h4
      have hb : b = 0 := by
        by_contra hb
        obtain ⟨k, i, hk, hi, rfl⟩ := h.split ht
        obtain ⟨k', i', hk', hi', rfl⟩ := h.split h1
        rw [(h.cell k i hk hi).2.2] at hv
        rw [(h.cell k' i' hk' hi').2.2] at h3
        obtain ⟨-, g1⟩ := hclear k i k' i' hk hi hk' hi' hv h3
        obtain ⟨-, g2⟩ := hclear k' i' k i hk' hi' hk hi h3 hv
        unfold Near Strata.Interface.image at h4
        simp only [(h.cell k i hk hi).1, (h.cell k' i' hk' hi').1] at h4
        have h5 : (x1 + dx * (k' : ℚ) + (b : ℚ) * ((nx : ℤ) * dx) - (x1 + dx * k)) ^ 2 ≤ r ^ 2 := by nlinarith [sq_nonneg ((row s (k' * ny + i')).y - (row s (k * ny + i)).y)]
        have h6 := abs_le_of_sq_le_sq' h5 hr
        have e : x1 + dx * (k' : ℚ) + (b : ℚ) * ((nx : ℤ) * dx) - (x1 + dx * k) = dx * ((k' : ℚ) - k + b * nx) := by
          rw [Int.cast_natCast]; ring
        rw [e] at h6
        have hnx : (0 : ℚ) ≤ nx := by positivity
        rcases lt_or_gt_of_ne hb with hneg | hpos
        · have hb1 : (b : ℚ) ≤ -1 := by exact_mod_cast (by omega : b ≤ -1)
          have : (k' : ℚ) - k + b * nx ≤ -((k : ℚ) + nx - k') := by nlinarith
          nlinarith [h6.1]
        · have hb1 : (1 : ℚ) ≤ b := by exact_mod_cast (by omega : 1 ≤ b)
          have : (k' : ℚ) + nx - k ≤ (k' : ℚ) - k + b * nx := by nlinarith
          nlinarith [h6.2]
      subst hb
      refine ⟨j, ⟨h1, fun hj => h2 (by rw [hj]), h3, ?_⟩, rfl⟩
      unfold Near Strata.Interface.image at h4
      unfold Near
      simpa using h4
    · rintro ⟨j', ⟨h1, h2, h3, h4⟩, he⟩
      obtain ⟨rfl, rfl⟩ := Prod.mk.inj he
      refine ⟨h1, fun hj => h2 (Prod.mk.inj hj).1, h3, ?_⟩
      unfold Near Strata.Interface.image
      unfold Near at h4
      simpa using h4
  have hcard : Set.ncard {p : ℕ × ℤ | p.1 < s.length ∧ p ≠ (t, 0) ∧ c ≤ (row s p.1).v ∧ Near r (row s t) (Strata.Interface.image ((nx : ℤ) * dx) p.2 (row s p.1))} =
      ((Finset.range s.length).filter fun j => j ≠ t ∧ c ≤ (row s j).v ∧ Near r (row s t) (row s j)).card := by
    rw [hset, Set.ncard_image_of_injective _ (fun a b hab => (Prod.mk.inj hab).1), ← Set.ncard_coe_finset]
    congr 1
    ext j
    simp
  rw [hcard]

/-- Both searches of `get_spreading_edges` agree on a map whose liquid is one piece, layer by layer, away from the sides. -/
theorem searches_agree {s : System} {M : ℕ → ℕ → ℚ} {nx ny : ℕ} {dx dy x1 y1 : ℚ} (h : GridCells s M nx ny dx dy x1 y1) (hnx : 0 < nx) (hny : 0 < ny) (hdx : 0 < dx) (hdy : 0 < dy) (hx : 0 ≤ x1 ∧ x1 ≤ dx)
    {r c : ℚ} (hr : 0 ≤ r ∧ r < nx * dx) (floor : Option ℚ) (o : Interface.Opts) (hc : UsedCutoff M nx ny o.cutoff c) (hclear : ClearOfSides M nx ny dx r c)
    (hpiece : ∀ j, j < ny → SearchedLayer ny y1 dy floor j → OnePiece (fun k => WetBin M nx ny dx dy r c o.bins k j) nx) (box : Option (ℚ × ℚ)) (ly : ℚ) :
    ∃ e, spreadingEdges s box r floor { o with longest := false } = .ok e ∧ spreadingEdges s (some (((nx : ℤ) : ℚ) * dx, ly)) r floor { o with longest := true } = .ok e := by
  have hnb : ((nx : ℤ) : ℚ) * dx = (nx : ℚ) * dx := by norm_num
  obtain ⟨yf, hyf, hys⟩ : ∃ yf, floorHeight floor (s.map (·.y)) = .ok yf ∧ ∀ j, j < ny → (SearchedLayer ny y1 dy floor j ↔ ∀ y, yf = some y → y1 + dy * j = y) := by
    rcases h.floor hnx hny floor with ⟨h1, h2⟩ | ⟨v, j, h1, hj, h2, h3⟩
    · refine ⟨none, h2, fun j _ => ⟨fun _ y hy => (by cases hy), fun _ v hv => by rw [h1] at hv; cases hv⟩⟩
    · refine ⟨_, h2, fun i hi => ?_⟩
      rw [h3 i hi]
      constructor
      · rintro rfl y hy
        exact Option.some.inj hy
      · intro hy
        have := hy _ rfl
        have hij : (i : ℚ) = j := mul_left_cancel₀ hdy.ne' (by linarith)
        exact_mod_cast hij
  obtain ⟨e, g1, g2, g3⟩ := C91_longest s (((nx : ℤ) : ℚ) * dx, ly) r c floor yf { o with longest := true } rfl (h.cutoff hc) hyf hr.1
    (by simp only; rw [hnb]; exact hr.2) (by
      intro d hd
      obtain ⟨t, ht, rfl⟩ := List.getElem_of_mem hd
      obtain ⟨k, j, hk, hj, rfl⟩ := h.split ht
      have hrow : s[k * ny + j] = row s (k * ny + j) := by
        unfold row
        rw [List.getD_eq_getElem?_getD, List.getElem?_eq_getElem ht, Option.getD_some]
      rw [hrow, (h.cell k j hk hj).1]
      have hk' : (k : ℚ) + 1 ≤ nx := by exact_mod_cast hk
      have hk0 : (0 : ℚ) ≤ k := by positivity
      simp only
      rw [hnb]
      constructor
      · nlinarith [hx.1]
      · nlinarith [hx.2]) (by
      intro y
      by_cases hy : ∃ j : ℕ, j < ny ∧ y = y1 + dy * j
      · obtain ⟨j, hj, rfl⟩ := hy
        rw [h.layer hdy hj, List.pairwise_map]
        refine List.Pairwise.imp_of_mem ?_ List.pairwise_lt_range
        intro a b ha hb hab
        rw [(h.cell a j (List.mem_range.mp ha) hj).1, (h.cell b j (List.mem_range.mp hb) hj).1]
        have : (a : ℚ) < b := by exact_mod_cast hab
        nlinarith
      · rw [h.layer_none hy]
        exact List.Pairwise.nil)
  obtain ⟨e', f1, f2, f3⟩ := C91_outside_in s box r c floor yf { o with longest := false } rfl (h.cutoff hc) hyf
  have hliq := liquid_clear h hdx hr.1 hclear o.bins
  refine ⟨e', f1, ?_⟩
  rw [g1]
  congr 1
  have hnone : e = none ↔ e' = none := by
    rw [g2, f2]
    exact forall_congr' fun j => by simp only; rw [hliq j]
  rcases e' with _ | ⟨xl', xr'⟩
  · exact hnone.mpr rfl
  rcases e with _ | ⟨xl, xr⟩
  · have := hnone.mp rfl
    cases this
  obtain ⟨y, start, len, i, i', hrun, e1, e2, e3, e4, e5, e6⟩ := g3 xl xr rfl
  obtain ⟨y', hlay, d5, d6⟩ := f3 xl' xr' rfl
  have hlayer : ∃ j : ℕ, j < ny ∧ y = y1 + dy * j := by
    by_contra hcon
    rw [h.layer_none hcon] at e1
    simp at e1
  obtain ⟨j, hj, rfl⟩ := hlayer
  have hst := h.run hdy hj r c o.bins start len hrun
  have hst' := hst
  obtain ⟨s1, s2, s3, s4, -⟩ := hst'
  have hw0 := s4 0 (by omega)
  rw [Nat.add_zero, Nat.mod_eq_of_lt s3] at hw0
  have hliq0 : Liquid s r c o.bins (start * ny + j) := (hliq _).mp ((h.liquid r c o.bins s3 hj).mpr hw0)
  obtain ⟨⟨tl, l1, l2, l3⟩, ⟨tr, m1, m2, m3⟩, hout⟩ := hlay
  obtain ⟨ka, ja, hka, hja, rfl⟩ := h.split l1.1
  obtain ⟨kb, jb, hkb, hjb, rfl⟩ := h.split m1.1
  have hyy : y' = y1 + dy * j := by
    rcases yf with _ | yv
    · have q1 := d6 rfl _ hliq0
      have q2 := e6 rfl _ ((hliq _).mpr l1)
      rw [(h.cell start j s3 hj).2.1] at q1
      rw [l2] at q2
      exact le_antisymm q1 q2
    · rw [d5 yv rfl, e5 yv rfl]
  subst hyy
  have hjj : ∀ i : ℕ, y1 + dy * (i : ℚ) = y1 + dy * (j : ℚ) → i = j := by
    intro i hi
    have hij : (i : ℚ) = j := mul_left_cancel₀ hdy.ne' (by linarith)
    exact_mod_cast hij
  rw [(h.cell ka ja hka hja).2.1] at l2
  rw [(h.cell kb jb hkb hjb).2.1] at m2
  obtain rfl := hjj ja l2
  obtain rfl := hjj jb m2
  rw [(h.cell ka _ hka hj).1] at l3
  rw [(h.cell kb _ hkb hj).1] at m3
  have hwa := (h.liquid r c o.bins hka hj).mp ((hliq _).mpr l1)
  have hwb := (h.liquid r c o.bins hkb hj).mp ((hliq _).mpr m1)
  have hmono : ∀ a b : ℕ, x1 + dx * (a : ℚ) ≤ x1 + dx * (b : ℚ) → a ≤ b := by
    intro a b hab
    have : (a : ℚ) ≤ b := le_of_mul_le_mul_left (by linarith) hdx
    exact_mod_cast this
  obtain ⟨p1, p2⟩ := stretch_of_piece hst (hpiece _ hj ((hys _ hj).mpr fun y hy => e5 y hy)) hka hkb hwa hwb (fun k hk hw => by
    have hl := hout _ ((hliq _).mp ((h.liquid r c o.bins hk hj).mpr hw)) (h.cell k _ hk hj).2.1
    rw [(h.cell k _ hk hj).1, ← l3, ← m3] at hl
    exact ⟨hmono _ _ hl.1, hmono _ _ hl.2⟩) (by
    have hva := l1.2.1
    have hvb := m1.2.1
    rw [(h.cell ka _ hka hj).2.2] at hva
    rw [(h.cell kb _ hkb hj).2.2] at hvb
    exact (hclear ka _ kb _ hka hj hkb hj hva hvb).1)
  rw [h.layer hdy hj, List.getElem?_map, List.getElem?_range s3] at e1
  have e1 := Option.some.inj e1
  rw [h.layer hdy hj, List.length_map, List.length_range, List.getElem?_map, List.getElem?_range (Nat.mod_lt _ hnx)] at e2
  have e2 := Option.some.inj e2
  rw [e3, e4, ← e1, ← e2, (h.cell start _ s3 hj).1, p2, (h.cell kb _ hkb hj).1, p1, l3, m3]

/-- `FlowData(data)` without information. -/
theorem mk_plain {d : Record} (hne : d ≠ []) (hw : Wf d) : Flow.mk [.dict d] [] = .ok ⟨d, ⟨none, none, none, none⟩⟩ := by
  have hd : setData [.dict d] = .ok d := setData_of_wf _ _ (by simp [collate, bind, Except.bind]) hne hw
  unfold Flow.mk
  rw [hd, Gmx.ok_bind]
  rfl

/-- **C137** (partial: maps whose liquid is one piece, away from the sides of the box, with the same cut-off; `C137_across_boundary`, `C137_two_pieces` and `C137_default_cutoff` are what is missing).  For
a map on a grid, `average` recentres at the left or right edge `spreading collect` finds with the same options. -/
theorem C137_same_edges_partial (m : Map) (nx ny : ℕ) (dx dy x1 y1 : ℚ) (or : ℚ × ℚ) (h : OnGrid m nx ny dx dy x1 y1 or) (hnx : 0 < nx) (hny : 0 < ny) (hdx : 0 < dx) (hdy : 0 < dy)
    (hx : 0 ≤ x1 ∧ x1 ≤ dx) (radius c : ℚ) (hr : 0 ≤ radius ∧ radius < nx * dx) (floor : Option ℚ) (o : Interface.Opts)
    (hc : UsedCutoff (fun k j => val m.1 "M" (k * ny + j)) nx ny o.cutoff c) (hclear : ClearOfSides (fun k j => val m.1 "M" (k * ny + j)) nx ny dx radius c)
    (hpiece : ∀ j, j < ny → SearchedLayer ny y1 dy floor j → OnePiece (fun k => WetBin (fun k j => val m.1 "M" (k * ny + j)) nx ny dx dy radius c o.bins k j) nx) :
    ∃ edges : Option (ℚ × ℚ), (∀ path, (flowOf m >>= fun f => frameOf f path radius floor o) = .ok ⟨nx * dx, edges, path⟩) ∧
      position (averageEdges radius floor o) .left m.1 = .ok (edges.map Prod.fst) ∧ position (averageEdges radius floor o) .right m.1 = .ok (edges.map Prod.snd) := by
  obtain ⟨hne, hw, -⟩ := OnGrid.wf h
  obtain ⟨s, hs, hlen, hcell⟩ := cells_grid h
  have hg : GridCells s (fun k j => val m.1 "M" (k * ny + j)) nx ny dx dy x1 y1 := ⟨hlen, hcell⟩
  have hnb : ((nx : ℤ) : ℚ) * dx = (nx : ℚ) * dx := by norm_num
  obtain ⟨e, e1, e2⟩ := searches_agree hg hnx hny hdx hdy hx hr floor o hc hclear hpiece none (((ny : ℤ) : ℚ) * dy)
  have hav : averageEdges radius floor o ⟨m.1, ⟨none, none, none, none⟩⟩ = .ok (e.map Prod.fst, e.map Prod.snd) := by
    unfold averageEdges
    simp only
    rw [hs, Gmx.ok_bind, show boxSize ⟨m.1, ⟨none, none, none, none⟩⟩ = none from rfl, e1]
    rfl
  refine ⟨e, fun path => ?_, ?_, ?_⟩
  · rw [flowOf_grid h, Gmx.ok_bind]
    unfold frameOf
    simp only
    rw [hs, Gmx.ok_bind, show boxSize ⟨m.1, ⟨some ((nx : ℤ), (ny : ℤ)), some or, some (dx, dy), some ((nx * ny : ℕ) : ℤ)⟩⟩ = some (((nx : ℤ) : ℚ) * dx, ((ny : ℤ) : ℚ) * dy) from rfl, e2, Gmx.ok_bind]
    rcases e with _ | e
    · simp only [Option.getD_some]
      rw [hnb]
    · simp only
      rw [hnb]
  · unfold position
    rw [mk_plain hne hw, Gmx.ok_bind]
    simp only
    rw [hav]
    rfl
  · unfold position
    rw [mk_plain hne hw, Gmx.ok_bind]
    simp only
    rw [hav]
    rfl

/-- A map on a grid is a full grid. -/
theorem OnGrid.fullGrid {m : Map} {nx ny : ℕ} {dx dy x1 y1 : ℚ} {or : ℚ × ℚ} (h : OnGrid m nx ny dx dy x1 y1 or) (hnx : 0 < nx) (hny : 0 < ny) (hdx : 0 < dx) (hdy : 0 < dy) :
    Resample.FullGrid m.1 (dx, dy) x1 y1 nx ny := by
  obtain ⟨hne, hw, hsize⟩ := SpreadingFiles.OnGrid.wf h
  refine Sample.fullGrid_of_rows m.1 (dx, dy) x1 y1 nx ny ("X", "Y") (nx * ny) hsize hw (by rw [h.labels]; simp) (by rw [h.labels]; simp) hnx hny ?_ ?_
  · intro i hi j hj
    refine ⟨i * ny + j, by rw [Nat.mul_comm nx]; exact grid_lt hj hi, fun t ht => ?_⟩
    obtain ⟨p1, p2⟩ := h.pos t ht
    simp only
    rw [p1, p2]
    constructor
    · rintro ⟨q1, q2⟩
      have e1 : ((t / ny : ℕ) : ℚ) = i := mul_left_cancel₀ hdx.ne' (by linarith)
      have e2 : ((t % ny : ℕ) : ℚ) = j := mul_left_cancel₀ hdy.ne' (by linarith)
      have e1 : t / ny = i := by exact_mod_cast e1
      have e2 : t % ny = j := by exact_mod_cast e2
      rw [← e1, ← e2, Nat.mul_comm]
      exact (Nat.div_add_mod t ny).symm
    · rintro rfl
      rw [grid_div hj, grid_mod hj]
      exact ⟨rfl, rfl⟩
  · intro t ht
    obtain ⟨p1, p2⟩ := h.pos t ht
    refine ⟨t / ny, (Nat.div_lt_iff_lt_mul hny).mpr ht, t % ny, Nat.mod_lt _ hny, p1, p2⟩

/-- **C137.** With the cut-off 0 of the command `average`, every bin of a map without negative masses counts as liquid (one neighbour asked for and neighbours within the radius): the edges are the first
and the last column of the map, whatever is in it. -/
theorem C137_default_cutoff (m : Map) (nx ny : ℕ) (dx dy x1 y1 : ℚ) (or : ℚ × ℚ) (h : OnGrid m nx ny dx dy x1 y1 or) (hnx : 2 ≤ nx) (hny : 0 < ny) (hdx : 0 < dx) (hdy : 0 < dy)
    (a : EdgeArgs) (hcut : a.cutoff = 0) (hbins : a.bins = 1) (hr : dx ≤ a.radius) (hM : ∀ t, t < nx * ny → 0 ≤ val m.1 "M" t) :
    position (commandEdges a) .left m.1 = .ok (some x1) ∧ position (commandEdges a) .right m.1 = .ok (some (x1 + dx * ((nx : ℚ) - 1))) := by
  obtain ⟨hne, hw, -⟩ := SpreadingFiles.OnGrid.wf h
  obtain ⟨s, hs, hlen, hcell⟩ := cells_grid h
  have hg : GridCells s (fun k j => val m.1 "M" (k * ny + j)) nx ny dx dy x1 y1 := ⟨hlen, hcell⟩
  have hv : ∀ k j, k < nx → j < ny → 0 ≤ (row s (k * ny + j)).v := fun k j hk hj => by
    rw [(hcell k j hk hj).2.2]
    exact hM _ (by rw [← hlen]; exact hg.lt hk hj)
  have hnear : ∀ k k' j, k < nx → k' < nx → j < ny → (k' = k + 1 ∨ k = k' + 1) → Near a.radius (row s (k * ny + j)) (row s (k' * ny + j)) := by
    intro k k' j hk hk' hj hkk
    unfold Near
    rw [(hcell k j hk hj).1, (hcell k j hk hj).2.1, (hcell k' j hk' hj).1, (hcell k' j hk' hj).2.1]
    have : (x1 + dx * (k' : ℚ) - (x1 + dx * k)) ^ 2 = dx ^ 2 := by
      rcases hkk with rfl | rfl <;> push_cast <;> ring
    rw [this]
    nlinarith
  have hliq : ∀ k j, k < nx → j < ny → Liquid s a.radius 0 1 (k * ny + j) := by
    intro k j hk hj
    refine ⟨hg.lt hk hj, hv k j hk hj, ?_⟩
    obtain ⟨k', hk', hkk⟩ : ∃ k', k' < nx ∧ (k' = k + 1 ∨ k = k' + 1) := by
      rcases Nat.lt_or_ge (k + 1) nx with h1 | h1
      · exact ⟨k + 1, h1, .inl rfl⟩
      · exact ⟨k - 1, by omega, .inr (by omega)⟩
    have hpos : 0 < ((Finset.range s.length).filter fun i => i ≠ k * ny + j ∧ 0 ≤ (row s i).v ∧ Near a.radius (row s (k * ny + j)) (row s i)).card := by
      refine Finset.card_pos.mpr ⟨k' * ny + j, ?_⟩
      rw [Finset.mem_filter, Finset.mem_range]
      refine ⟨hg.lt hk' hj, fun he => ?_, hv k' j hk' hj, hnear k k' j hk hk' hj hkk⟩
      have := congrArg (· / ny) he
      simp only [grid_div hj] at this
      omega
    exact_mod_cast hpos
  obtain ⟨yf, hyf, j0, hj0, hy0⟩ : ∃ yf, floorHeight a.floor (s.map (·.y)) = .ok yf ∧ ∃ j, j < ny ∧ ∀ y, yf = some y → y1 + dy * (j : ℚ) = y := by
    rcases hg.floor (by omega) hny a.floor with ⟨-, h2⟩ | ⟨v, j, -, hj, h2, -⟩
    · exact ⟨none, h2, 0, hny, fun y hy => by cases hy⟩
    · exact ⟨_, h2, j, hj, fun y hy => Option.some.inj hy⟩
  obtain ⟨e, e1, e2, e3⟩ := C91_outside_in s none a.radius 0 a.floor yf { cutoff := some a.cutoff, bins := a.bins, longest := false } rfl (by unfold getCutoff; simp only; rw [hcut]) hyf
  simp only [hbins] at e2 e3
  have hsome : e ≠ none := by
    intro h0
    obtain ⟨y, hy1, hy2⟩ := e2.mp h0 _ (hliq 0 j0 (by omega) hj0)
    rw [(hcell 0 j0 (by omega) hj0).2.1] at hy2
    exact hy2 (hy0 y hy1)
  obtain ⟨⟨xl, xr⟩, rfl⟩ := Option.ne_none_iff_exists'.mp hsome
  obtain ⟨y, ⟨⟨tl, l1, l2, l3⟩, ⟨tr, m1, m2, m3⟩, hout⟩, -, -⟩ := e3 xl xr rfl
  obtain ⟨ka, ja, hka, hja, rfl⟩ := hg.split l1.1
  obtain ⟨kb, jb, hkb, hjb, rfl⟩ := hg.split m1.1
  rw [(hcell ka ja hka hja).1] at l3
  rw [(hcell kb jb hkb hjb).1] at m3
  rw [(hcell ka ja hka hja).2.1] at l2
  have b1 := (hout _ (hliq 0 ja (by omega) hja) (by rw [(hcell 0 ja (by omega) hja).2.1]; exact l2)).1
  have b2 := (hout _ (hliq (nx - 1) ja (by omega) hja) (by rw [(hcell (nx - 1) ja (by omega) hja).2.1]; exact l2)).2
  rw [(hcell 0 ja (by omega) hja).1] at b1
  rw [(hcell (nx - 1) ja (by omega) hja).1] at b2
  have hcast : ((nx - 1 : ℕ) : ℚ) = (nx : ℚ) - 1 := by rw [Nat.cast_sub (by omega)]; simp
  rw [hcast] at b2
  have hka0 : (0 : ℚ) ≤ ka := by positivity
  have hkb1 : (kb : ℚ) + 1 ≤ nx := by exact_mod_cast hkb
  have f1 : xl = x1 := by
    refine le_antisymm (by simpa using b1) ?_
    rw [← l3]; nlinarith
  have f2 : xr = x1 + dx * ((nx : ℚ) - 1) := by
    refine le_antisymm ?_ b2
    rw [← m3]; nlinarith
  have hav : commandEdges a ⟨m.1, ⟨none, none, none, none⟩⟩ = .ok (some x1, some (x1 + dx * ((nx : ℚ) - 1))) := by
    unfold commandEdges averageEdges
    simp only
    rw [hs, Gmx.ok_bind, show boxSize ⟨m.1, ⟨none, none, none, none⟩⟩ = none from rfl, e1, f1, f2]
    rfl
  constructor <;>
  · unfold position
    rw [mk_plain hne hw, Gmx.ok_bind]
    simp only
    rw [hav]
    rfl

/-- **C137.** So with the default cut-off, recentring maps on one grid at the left or the right contact line moves nothing relative to each other: column `i` of each result is column `i` of the map, the
first column being `x1` or `x1` minus the distance of the last column. -/
theorem C137_default_moves_nothing (ms : List Map) (nx ny : ℕ) (dx dy x1 y1 : ℚ) (or : ℚ × ℚ) (modu : ℕ) (h : SameGrid ms nx ny dx dy x1 y1 or modu) (hnx : 2 ≤ nx) (hny : 0 < ny) (hdx : 0 < dx)
    (hdy : 0 < dy) (a : EdgeArgs) (hcut : a.cutoff = 0) (hbins : a.bins = 1) (hr : dx ≤ a.radius) (hM : ∀ m ∈ ms, ∀ t, t < nx * ny → 0 ≤ val m.1 "M" t)
    (o : Opts) (info : DInfo) (b : ℚ) (ho : o.recenter = some .left ∧ b = x1 ∨ o.recenter = some .right ∧ b = x1 - dx * ((nx : ℚ) - 1)) :
    ∃ out info', recenterGroup (commandEdges a) o (ms.map Prod.fst) info = .ok (out, info') ∧
      List.Forall₂ (fun m r => ∀ l, l ≠ "X" → ∀ i j : ℕ, i < nx → j < ny → valueAt r l (b + dx * i) (y1 + dy * j) = valueAt m.1 l (x1 + dx * i) (y1 + dy * j)) ms out := by
  obtain ⟨hne, hall⟩ := h
  obtain ⟨c, k, hc, hck, hb⟩ : ∃ c, ∃ k : ℤ, (∃ ce, o.recenter = some ce ∧ ∀ m ∈ ms, position (commandEdges a) ce m.1 = .ok (some c)) ∧ c = x1 + dx * k ∧ b = x1 - dx * k := by
    rcases ho with ⟨h1, h2⟩ | ⟨h1, h2⟩
    · exact ⟨x1, 0, ⟨_, h1, fun m hm => (C137_default_cutoff m nx ny dx dy x1 y1 or (hall m hm).1 hnx hny hdx hdy a hcut hbins hr (hM m hm)).1⟩, by simp, by rw [h2]; simp⟩
    · exact ⟨x1 + dx * ((nx : ℚ) - 1), (nx : ℤ) - 1, ⟨_, h1, fun m hm => (C137_default_cutoff m nx ny dx dy x1 y1 or (hall m hm).1 hnx hny hdx hdy a hcut hbins hr (hM m hm)).2⟩,
        by push_cast; ring, by rw [h2]; push_cast; ring⟩
  obtain ⟨ce, hce, hpos⟩ := hc
  let P : Map → Placed := fun m => ⟨m.1, c, x1, y1, nx, ny⟩
  have hshift : ∀ m, (P m).shift dx = k := by
    intro m
    show pyRound ((c - x1) / dx) = k
    have : (c - x1) / dx = (k : ℚ) := by rw [hck]; field_simp; ring
    rw [this]
    exact pyRound_int k
  have hlo : ∀ m, (P m).lo dx = b := by
    intro m
    unfold Placed.lo
    rw [hshift, hb]
  have hhi : ∀ m, (P m).hi dx = b + dx * ((nx : ℚ) - 1) := by
    intro m
    unfold Placed.hi
    rw [hlo]
  have hal : Aligned dx dy x1 (nx * ny) (ms.map P) := by
    intro p hp
    obtain ⟨m, hm, rfl⟩ := List.mem_map.mp hp
    exact ⟨OnGrid.fullGrid (hall m hm).1 (show 0 < nx by omega) hny hdx hdy, hnx, (SpreadingFiles.OnGrid.wf (hall m hm).1).2.2, 0, by simp [P]⟩
  obtain ⟨m0, hm0⟩ := List.exists_mem_of_ne_nil ms hne
  have hnx' : (2 : ℚ) ≤ nx := by exact_mod_cast hnx
  obtain ⟨N, out, info', hN, hout, hf, -⟩ := C58_common_grid_partial hdx hdy (ms := ms.map P) (by simpa using hne) hal (a := b) (b := b + dx * ((nx : ℚ) - 1))
    ⟨⟨P m0, List.mem_map_of_mem hm0, hlo m0⟩, fun p hp => by obtain ⟨m, -, rfl⟩ := List.mem_map.mp hp; exact (hlo m).le⟩
    ⟨⟨P m0, List.mem_map_of_mem hm0, hhi m0⟩, fun p hp => by obtain ⟨m, -, rfl⟩ := List.mem_map.mp hp; exact (hhi m).ge⟩ (by nlinarith)
  have hNn : N = nx := by
    have : dx * ((N : ℚ) - 1) = dx * ((nx : ℚ) - 1) := by linarith
    have := mul_left_cancel₀ hdx.ne' this
    have : (N : ℚ) = nx := by linarith
    exact_mod_cast this
  subst hNn
  refine ⟨out, info', ?_, ?_⟩
  · unfold recenterGroup
    rw [hce]
    simp only
    have hp : (ms.map Prod.fst).mapM (position (commandEdges a) ce) = .ok (ms.map fun _ => some c) := by
      clear hout hf hal hm0 hne
      induction ms with
      | nil => rfl
      | cons m ms ih =>
        rw [List.map_cons, List.mapM_cons, hpos m (by simp), Gmx.ok_bind, ih (fun x hx => hpos x (by simp [hx])) (fun x hx => hM x (by simp [hx])) (fun x hx => hall x (by simp [hx])), Gmx.ok_bind]
        rfl
    rw [hp, Gmx.ok_bind]
    rw [List.map_map, List.map_map] at hout
    exact hout
  · rw [List.forall₂_map_left_iff] at hf
    refine hf.imp fun m r hmr l hl i j hi hj => ?_
    have := hmr.2.2 l hl i j hi hj
    rw [hshift m] at this
    show valueAt r l (b + dx * i) (y1 + dy * j) = _
    rw [show (P m).y0 = y1 from rfl, show (P m).d = m.1 from rfl] at this
    rw [this]
    congr 1
    rw [hb]
    ring

/-! ## Counterexamples and examples -/

/-- **C137** is false for a drop across the boundary of the box: `spreading collect` finds it from 7/4 to 1/4 (through the boundary), `average` from 7/4 to the last column.  Its right
edge is on the other side of the box. -/
theorem C137_across_boundary :
    (flowOf (exMapOf exWet') >>= fun f => frameOf f [] (1 / 2) none {}) = .ok ⟨5 / 2, some (7 / 4, 1 / 4), []⟩ ∧
    position (averageEdges (1 / 2) none {}) .left (exMapOf exWet').1 = .ok (some (7 / 4)) ∧ position (averageEdges (1 / 2) none {}) .right (exMapOf exWet').1 = .ok (some (9 / 4)) := by
  refine ⟨?_, ?_, ?_⟩ <;> decide +kernel

/-- **C137** is false for two drops: `spreading collect` takes the edges of the longer one, `average` the outer ones of both. -/
theorem C137_two_pieces :
    (flowOf (exMapOf [(0, 1), (0, 2), (2, 1), (3, 1)]) >>= fun f => frameOf f [] (1 / 2) none {}) = .ok ⟨5 / 2, some (5 / 4, 7 / 4), []⟩ ∧
    position (averageEdges (1 / 2) none {}) .left (exMapOf [(0, 1), (0, 2), (2, 1), (3, 1)]).1 = .ok (some (1 / 4)) ∧
    position (averageEdges (1 / 2) none {}) .right (exMapOf [(0, 1), (0, 2), (2, 1), (3, 1)]).1 = .ok (some (7 / 4)) := by
  refine ⟨?_, ?_, ?_⟩ <;> decide +kernel

/-- **C137** is false with the defaults of the commands: the cut-off of `spreading collect` is the middle between the least and the greatest mass, that of `average` is 0. -/
theorem C137_defaults_differ :
    (flowOf (exMapOf exWet) >>= fun f => frameOf f [] 1 none {}) = .ok ⟨5 / 2, some (5 / 4, 7 / 4), []⟩ ∧
    position (commandEdges {}) .left (exMapOf exWet).1 = .ok (some (1 / 4)) ∧ position (commandEdges {}) .right (exMapOf exWet).1 = .ok (some (9 / 4)) := by
  refine ⟨?_, ?_, ?_⟩ <;> decide +kernel

theorem exWet_columns : ∀ k : ℕ, k < 5 → ∀ j : ℕ, j < 6 → 5 / 2 ≤ val (exMapOf exWet).1 "M" (k * 6 + j) → k = 2 ∨ k = 3 := by decide +kernel

/-- A drop on columns 2 and 3 of 5 meets the hypotheses of `C137_same_edges_partial`, with the default cut-off of `spreading collect` and with the same number given. -/
example : OnGrid (exMapOf exWet) 5 6 (1 / 2) (1 / 2) (1 / 4) (1 / 4) (0, 0) ∧ UsedCutoff (fun k j => val (exMapOf exWet).1 "M" (k * 6 + j)) 5 6 none (5 / 2) ∧
    UsedCutoff (fun k j => val (exMapOf exWet).1 "M" (k * 6 + j)) 5 6 (some (5 / 2)) (5 / 2) ∧ ClearOfSides (fun k j => val (exMapOf exWet).1 "M" (k * 6 + j)) 5 6 (1 / 2) (1 / 2) (5 / 2) ∧
    ∀ j, j < 6 → OnePiece (fun k => WetBin (fun k j => val (exMapOf exWet).1 "M" (k * 6 + j)) 5 6 (1 / 2) (1 / 2) (1 / 2) (5 / 2) 1 k j) 5 := by
  refine ⟨⟨rfl, rfl, by decide +kernel, by decide +kernel⟩, .inr ⟨rfl, 1, 4, by norm_num, by norm_num, ⟨0, 0, by norm_num, by norm_num, by decide +kernel⟩,
    ⟨3, 1, by norm_num, by norm_num, by decide +kernel⟩, ?_⟩, .inl rfl, ?_, ?_⟩
  · have : ∀ k : ℕ, k < 5 → ∀ j : ℕ, j < 6 → 1 ≤ val (exMapOf exWet).1 "M" (k * 6 + j) ∧ val (exMapOf exWet).1 "M" (k * 6 + j) ≤ 4 := by decide +kernel
    exact fun k j hk hj => this k hk j hj
  · intro k j k' j' hk hj hk' hj' h1 h2
    rcases exWet_columns k hk j hj h1 with rfl | rfl <;> rcases exWet_columns k' hk' j' hj' h2 with rfl | rfl <;> norm_num
  · intro j hj a b k hak hkb hb h1 h2
    rcases exWet_columns a (by omega) j hj h1.1 with rfl | rfl <;> rcases exWet_columns b hb j hj h2.1 with rfl | rfl
    · rw [show k = 2 by omega]; exact h1
    · rcases (by omega : k = 2 ∨ k = 3) with rfl | rfl
      · exact h1
      · exact h2
    · omega
    · rw [show k = 3 by omega]; exact h1

/-- The hypotheses of `C137_default_cutoff` and `C137_default_moves_nothing` hold for two maps with different drops. -/
example : SameGrid [exMapOf exWet, exMapOf exWet'] 5 6 (1 / 2) (1 / 2) (1 / 4) (1 / 4) (0, 0) 0 ∧ (1 / 2 : ℚ) ≤ ({} : EdgeArgs).radius ∧ ({} : EdgeArgs).cutoff = 0 ∧ ({} : EdgeArgs).bins = 1 ∧
    ∀ m ∈ [exMapOf exWet, exMapOf exWet'], ∀ t : ℕ, t < 5 * 6 → 0 ≤ val m.1 "M" t := by
  refine ⟨⟨by simp, ?_⟩, by decide +kernel, rfl, rfl, by decide +kernel⟩
  intro m hm
  simp only [List.mem_cons, List.not_mem_nil, or_false] at hm
  rcases hm with rfl | rfl <;> exact ⟨⟨rfl, rfl, by decide +kernel, by decide +kernel⟩, rfl⟩

end Strata.Driver
