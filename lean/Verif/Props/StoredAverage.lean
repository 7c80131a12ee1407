import Verif.Props.Stored
import Verif.Proofs.Downsample
/-! # C161: averages of maps of one area, stored in one order -/
namespace Strata.Average
open Strata Strata.Flow Strata.Resample

theorem minCol {r : Record} {sp : ℚ × ℚ} {x0 y0 : ℚ} {nx ny : ℕ} (h : FullGrid r sp x0 y0 nx ny) (hx : 0 < sp.1) (hy : 0 < sp.2) :
    (field r "X" >>= npMin) = .ok x0 ∧ (field r "Y" >>= npMin) = .ok y0 := by
  obtain ⟨xs, e1, c1⟩ := field_ok h.hasX
  obtain ⟨ys, e2, c2⟩ := field_ok h.hasY
  simp only at e1 e2
  rw [e1, e2]
  exact ⟨npMin_of_iff xs nx h.nxpos x0 sp.1 hx (h.col_x c1), npMin_of_iff ys ny h.nypos y0 sp.2 hy (h.col_y c2)⟩

theorem lattice_full {r : Record} {sp : ℚ × ℚ} {x0 y0 : ℚ} {nx ny : ℕ} (h : Lattice r sp x0 y0 nx ny) (hx : 0 < sp.1) (hy : 0 < sp.2) :
    (field r "X" >>= npMin) = .ok x0 ∧ (field r "Y" >>= npMin) = .ok y0 := by
  have m1 := h.min_x hx
  have m2 := h.min_y hy
  exact ⟨m1, m2⟩

theorem transferCol_all {nx ny : ℕ} {g c : List ℚ} (hc : c.length = nx * ny) : transferCol nx ny 0 0 nx ny g c = c := by
  apply List.ext_getElem
  · simp [transferCol, hc]
  · intro t h1 h2
    have ht : t < nx * ny := by rw [← hc]; exact h2
    have hn : 0 < nx := Nat.pos_of_ne_zero fun h0 => by rw [h0] at ht; simp at ht
    simp only [transferCol, List.getElem_map, List.getElem_range, Nat.zero_le, true_and, zero_add, Nat.sub_zero]
    rw [if_pos ⟨Nat.mod_lt _ hn, Nat.div_lt_of_lt_mul ht⟩, show t / nx * nx + t % nx = t by rw [Nat.mul_comm]; exact Nat.div_add_mod t nx,
      List.getD_eq_getElem?_getD, List.getElem?_eq_getElem h2, Option.getD_some]

theorem zipWith_second {nx ny : ℕ} : ∀ (g d : Record), names g = names d → (∀ c ∈ d, c.2.length = nx * ny) →
    List.zipWith (fun gc dc => (gc.1, transferCol nx ny 0 0 nx ny gc.2 dc.2)) g d = d := by
  intro g
  induction g with
  | nil => intro d h _; cases d with
    | nil => rfl
    | cons a as => simp [names] at h
  | cons a as ih =>
    intro d h hd
    cases d with
    | nil => simp [names] at h
    | cons b bs =>
      simp only [names, List.map_cons, List.cons.injEq] at h
      rw [List.zipWith_cons_cons, ih bs h.2 fun c hc => hd c (by simp [hc]), transferCol_all (hd b (by simp)), h.1]

/-- A map is put on a grid of its own area as it is stored. -/
theorem transfer_same {g : Grid} {r : Record} {sp : ℚ × ℚ} {x0 y0 : ℚ} {nx ny : ℕ} (hx : 0 < sp.1) (hy : 0 < sp.2)
    (hg : Lattice g.data sp x0 y0 nx ny) (en : g.nx = nx) (em : g.ny = ny) (hr : FullGrid r sp x0 y0 nx ny) (hn : names g.data = names r) :
    transferData g r (some ((nx : ℤ), (ny : ℤ))) sp = .ok r := by
  obtain ⟨a1, a2⟩ := lattice_full hg hx hy
  obtain ⟨b1, b2⟩ := minCol hr hx hy
  obtain ⟨c1, f1, -⟩ := field_ok hg.hasX
  obtain ⟨c2, f2, -⟩ := field_ok hg.hasY
  obtain ⟨c3, f3, -⟩ := field_ok hr.hasX
  obtain ⟨c4, f4, -⟩ := field_ok hr.hasY
  simp only at f1 f2 f3 f4
  rw [f1] at a1
  rw [f2] at a2
  rw [f3] at b1
  rw [f4] at b2
  simp only [bind, Except.bind] at a1 a2 b1 b2
  have hs := hr.size_eq hx hy
  have hlen : r.length = g.data.length := by
    have := congrArg List.length hn
    simpa [names] using this.symm
  have hz : ∀ v s : ℚ, (max (pyRound (-(v - v) / s)) 0).toNat = 0 := by
    intro v s
    rw [sub_self, neg_zero, zero_div, show (0 : ℚ) = ((0 : ℤ) : ℚ) by simp, pyRound_int]; rfl
  unfold transferData
  simp only [bind, Except.bind, f1, f2, f3, f4, a1, a2, b1, b2, hz]
  rw [if_neg (by rintro (h | h); exacts [hx.ne' h, hy.ne' h]), if_neg, if_pos]
  · simp only [Int.toNat_natCast, en, em]
    rw [zipWith_second g.data r hn fun c hc => by rw [hr.wf.2 c hc, hs]]
  · simp only [Int.toNat_natCast, en, em]
    exact ⟨hlen, Or.inl (by omega), Or.inl (by omega)⟩
  · rw [hs]
    push_cast
    rintro (h | h | h)
    · omega
    · omega
    · exact h rfl

/-- **C161, averages of one area.**  Maps of the same area whose bins are stored in the same order, whatever it is (the maps of one gmx simulation are stored column by
column), are averaged position by position. -/
theorem C161_average_same_order (huge : ℚ) (maps : List Flow) (ws : List (Label × Label)) (ex : Bool) (sp : ℚ × ℚ) (x0 y0 : ℚ) (nx ny : ℕ) (ls : List Label)
    (hne : maps ≠ []) (hx : 0 < sp.1) (hy : 0 < sp.2) (hm : ∀ f ∈ maps, FullMap f sp x0 y0 nx ny ∧ names f.data = ls)
    (hsame : ∀ f ∈ maps, ∀ f' ∈ maps, ∀ t, t < nx * ny → val f.data "X" t = val f'.data "X" t ∧ val f.data "Y" t = val f'.data "Y" t)
    (hnd : (ws.map Prod.fst).Nodup)
    (hws : ∀ p ∈ ws, p.1 ∈ ls ∧ p.2 ∈ ls ∧ p.1 ≠ "X" ∧ p.1 ≠ "Y" ∧ p.2 ≠ "X" ∧ p.2 ≠ "Y" ∧ ∀ q ∈ ws, q.1 ≠ p.2) :
    ∃ out, averageFlowData huge maps ws ex = .ok out ∧ FullMap out sp x0 y0 nx ny ∧ names out.data = ls ∧
      out.info = { shape := some ((nx : ℤ), (ny : ℤ)), origin := some (x0, y0), spacing := some sp, numBins := some (nx * ny) } ∧
      (∀ l ∈ ls, l ≠ "X" → l ≠ "Y" → (∀ p ∈ ws, p.1 ≠ l) → ∀ i j, i < nx → j < ny → atNode out.data l sp x0 y0 ("X", "Y") i j =
        (maps.map fun f => atNode f.data l sp x0 y0 ("X", "Y") i j).sum / maps.length) ∧
      ∀ p ∈ ws, ∀ i j, i < nx → j < ny → atNode out.data p.1 sp x0 y0 ("X", "Y") i j = divNan huge
        (maps.map fun f => atNode f.data p.1 sp x0 y0 ("X", "Y") i j * atNode f.data p.2 sp x0 y0 ("X", "Y") i j).sum
        (maps.map fun f => atNode f.data p.2 sp x0 y0 ("X", "Y") i j).sum := by
  obtain ⟨f0, hf0⟩ : ∃ f0, maps.head? = some f0 := by
    cases hc : maps with
    | nil => exact absurd hc hne
    | cons a as => exact ⟨a, rfl⟩
  have hf0m : f0 ∈ maps := List.mem_of_mem_head? hf0
  have h0 := (hm f0 hf0m).1.1
  have hn := h0.nxpos
  have hn' := h0.nypos
  have hsize : ∀ f ∈ maps, Flow.size f.data = nx * ny := fun f hf => (hm f hf).1.1.size_eq hx hy
  have hposn : 0 < nx * ny := Nat.mul_pos hn hn'
  have hpos : ∀ f ∈ maps, 0 < Flow.size f.data := fun f hf => by rw [hsize f hf]; exact hposn
  have hused : maps.filter (fun f => !ex || decide (0 < Flow.size f.data)) = maps := by
    rw [List.filter_eq_self]
    intro f hf
    simp [hpos f hf]
  have hsp := getSpacing_ok maps sp hne fun f hf => (hm f hf).1.2.2
  obtain ⟨g, xg, yg, hgr, hgl, hgn, -, hminx, hminy, hmaxx, hmaxy, hcov⟩ :=
    combinedGrid_spec (maps.map (·.data)) sp ("X", "Y") (by decide) hx hy
      (by
        intro d hd
        obtain ⟨f, hf, rfl⟩ := List.mem_map.mp hd
        exact ⟨(hm f hf).1.1.wf, (hm f hf).1.1.hasX, (hm f hf).1.1.hasY⟩)
      ⟨f0.data, List.mem_map_of_mem hf0m, hpos f0 hf0m⟩ x0 y0
      (by
        intro d hd t ht
        obtain ⟨f, hf, rfl⟩ := List.mem_map.mp hd
        obtain ⟨i, j, -, -, e1, e2⟩ := (hm f hf).1.1.row t ht
        exact ⟨⟨i, by rw [e1]; rfl⟩, ⟨j, by rw [e2]; rfl⟩⟩)
  simp only at hgl hminx hminy hmaxx hmaxy hcov
  have p1 := hgl.nxpos
  have p2 := hgl.nypos
  -- the corners
  have cancelx : ∀ {a b : ℕ}, sp.1 * (a : ℚ) = sp.1 * (b : ℚ) → a = b := fun e => by exact_mod_cast mul_left_cancel₀ hx.ne' e
  have cancely : ∀ {a b : ℕ}, sp.2 * (a : ℚ) = sp.2 * (b : ℚ) → a = b := fun e => by exact_mod_cast mul_left_cancel₀ hy.ne' e
  have bx : ∀ {i j : ℕ}, i < nx → j < ny → ∃ a b, a < g.nx ∧ b < g.ny ∧ x0 + sp.1 * (i : ℚ) = xg + sp.1 * (a : ℚ) ∧ y0 + sp.2 * (j : ℚ) = yg + sp.2 * (b : ℚ) := by
    intro i j hi hj
    obtain ⟨t, ⟨ht, e1, e2⟩, -⟩ := h0.node i j hi hj
    obtain ⟨a, b, ha, hb, q1, q2⟩ := hcov f0.data (List.mem_map_of_mem hf0m) t ht
    simp only at e1 e2
    exact ⟨a, b, ha, hb, by rw [← e1, q1], by rw [← e2, q2]⟩
  have rowOf : ∀ d ∈ maps.map (·.data), ∀ t, t < Flow.size d → ∃ i j, i < nx ∧ j < ny ∧ val d "X" t = x0 + sp.1 * (i : ℚ) ∧ val d "Y" t = y0 + sp.2 * (j : ℚ) := by
    intro d hd t ht
    obtain ⟨f, hf, rfl⟩ := List.mem_map.mp hd
    exact (hm f hf).1.1.row t ht
  obtain ⟨a0, b0, -, -, ea0, eb0⟩ := bx hn hn'
  simp only [Nat.cast_zero, mul_zero, add_zero] at ea0 eb0
  have exg : xg = x0 := by
    obtain ⟨d, hd, t, ht, e⟩ := hminx
    obtain ⟨i, j, -, -, q, -⟩ := rowOf d hd t ht
    have : sp.1 * ((i + a0 : ℕ) : ℚ) = sp.1 * ((0 : ℕ) : ℚ) := by rw [Nat.cast_add, Nat.cast_zero]; linarith
    have := cancelx this
    have ha : a0 = 0 := by omega
    rw [ha] at ea0; simp at ea0; exact ea0.symm
  have eyg : yg = y0 := by
    obtain ⟨d, hd, t, ht, e⟩ := hminy
    obtain ⟨i, j, -, -, -, q⟩ := rowOf d hd t ht
    have : sp.2 * ((j + b0 : ℕ) : ℚ) = sp.2 * ((0 : ℕ) : ℚ) := by rw [Nat.cast_add, Nat.cast_zero]; linarith
    have := cancely this
    have hb : b0 = 0 := by omega
    rw [hb] at eb0; simp at eb0; exact eb0.symm
  subst exg eyg
  obtain ⟨a1, b1, ha1, hb1, ea1, eb1⟩ := bx (i := nx - 1) (j := ny - 1) (by omega) (by omega)
  have ea1 := cancelx (add_left_cancel ea1)
  have eb1 := cancely (add_left_cancel eb1)
  have en : g.nx = nx := by
    obtain ⟨d, hd, t, ht, e⟩ := hmaxx
    obtain ⟨i, j, hi, -, q, -⟩ := rowOf d hd t ht
    rw [q] at e
    have := cancelx (add_left_cancel e)
    omega
  have em : g.ny = ny := by
    obtain ⟨d, hd, t, ht, e⟩ := hmaxy
    obtain ⟨i, j, -, hj, -, q⟩ := rowOf d hd t ht
    rw [q] at e
    have := cancely (add_left_cancel e)
    omega
  have hgls : names g.data = ls := by
    rw [hgn f0.data (by rw [List.head?_map, hf0]; rfl)]
    exact (hm f0 hf0m).2
  have htr : (maps.mapM fun f => transferData g f.data f.info.shape sp ("X", "Y")) = .ok (maps.map (·.data)) := by
    have : ∀ l : List Flow, (∀ f ∈ l, f ∈ maps) → (l.mapM fun f => transferData g f.data f.info.shape sp ("X", "Y")) = .ok (l.map (·.data)) := by
      intro l hl
      induction l with
      | nil => rfl
      | cons f l ih =>
        obtain ⟨⟨hg, hsh, -⟩, hnm⟩ := hm f (hl f (by simp))
        rw [List.mapM_cons, hsh, transfer_same hx hy (en ▸ em ▸ hgl) en em hg (by rw [hgls, hnm]), ih fun f hf => hl f (by simp [hf])]
        rfl
    exact this maps fun f hf => hf
  obtain ⟨avg, k1, k2, k3, k4, k5, k6, k7⟩ := averageData_spec huge (maps.map (·.data)) ws ("X", "Y") ls (nx * ny) (by simpa using hne)
    (by intro d hd; obtain ⟨f, hf, rfl⟩ := List.mem_map.mp hd; exact ⟨(hm f hf).1.1.wf, (hm f hf).2, hsize f hf⟩) hnd
    (by intro p hp; obtain ⟨a, b, c, d, e, f, h⟩ := hws p hp; exact ⟨a, b, e, f, h⟩)
  simp only at k5 k6 k7
  have hX : "X" ∈ ls := by rw [← (hm f0 hf0m).2]; exact h0.hasX
  have hY : "Y" ∈ ls := by rw [← (hm f0 hf0m).2]; exact h0.hasY
  have vx : ∀ t, val avg "X" t = val f0.data "X" t := k5 f0.data (by rw [List.head?_map, hf0]; rfl) "X" (Or.inl rfl) fun p hp => (hws p hp).2.2.1
  have vy : ∀ t, val avg "Y" t = val f0.data "Y" t := k5 f0.data (by rw [List.head?_map, hf0]; rfl) "Y" (Or.inr rfl) fun p hp => (hws p hp).2.2.2.1
  have sz : Flow.size avg = Flow.size f0.data := by rw [k4, hsize f0 hf0m]
  have hfull : FullGrid avg sp xg yg nx ny := by
    refine ⟨k2, by rw [k3]; exact hX, by rw [k3]; exact hY, hn, hn', ?_, ?_⟩
    · intro i j hi hj
      simp only [vx, vy, sz]
      exact h0.node i j hi hj
    · intro t ht
      simp only [vx, vy]
      exact h0.row t (by rw [← sz]; exact ht)
  have hnode : ∀ i j, i < nx → j < ny → ∃ t, t < nx * ny ∧ (∀ l, atNode avg l sp xg yg ("X", "Y") i j = val avg l t) ∧
      ∀ f ∈ maps, ∀ l, atNode f.data l sp xg yg ("X", "Y") i j = val f.data l t := by
    intro i j hi hj
    obtain ⟨t, ⟨ht, e1, e2⟩, -⟩ := hfull.node i j hi hj
    have ht' : t < nx * ny := by rw [← k4]; exact ht
    refine ⟨t, ht', fun l => ?_, fun f hf l => ?_⟩
    · unfold atNode
      rw [← e1, ← e2]
      exact hfull.valueAt_row l ht
    · unfold atNode
      obtain ⟨s1, s2⟩ := hsame f hf f0 hf0m t ht'
      simp only at e1 e2
      rw [← e1, ← e2, vx, vy, ← s1, ← s2]
      exact (hm f hf).1.1.valueAt_row l (by rw [hsize f hf]; exact ht')
  refine ⟨⟨avg, ⟨some ((g.nx : ℤ), (g.ny : ℤ)), some (xg, yg), some sp, some (g.nx * g.ny)⟩⟩, ?_, ⟨hfull, by rw [en, em], rfl⟩, k3, by rw [en, em], ?_, ?_⟩
  · unfold averageFlowData
    rw [hsp]
    simp only [bind, Except.bind, hused, hgr]
    simp only [htr, k1]
    exact getFlowData_ok avg g sp xg yg k2 (by intro h; rw [h] at k3; rw [← k3] at hX; simp [names] at hX) hgl
  · intro l hl h1 h2 h3 i j hi hj
    obtain ⟨t, ht, q1, q2⟩ := hnode i j hi hj
    simp only
    rw [q1, k6 l hl h1 h2 h3 t ht, List.map_map, List.length_map]
    congr 2
    exact List.map_congr_left fun f hf => (q2 f hf l).symm
  · intro p hp i j hi hj
    obtain ⟨t, ht, q1, q2⟩ := hnode i j hi hj
    simp only
    rw [q1, k7 p hp t ht, List.map_map, List.map_map]
    congr 2
    · exact List.map_congr_left fun f hf => by rw [q2 f hf, q2 f hf]; rfl
    · exact List.map_congr_left fun f hf => by rw [q2 f hf]; rfl

/-- Two maps stored column by column. -/
def exColA : Flow := ⟨[("X", [0, 0, 1, 1]), ("Y", [0, 1, 0, 1]), ("M", [1, 3, 2, 4])], { shape := some (2, 2), spacing := some (1, 1) }⟩
/-- See `exColA`. -/
def exColB : Flow := ⟨[("X", [0, 0, 1, 1]), ("Y", [0, 1, 0, 1]), ("M", [5, 7, 6, 8])], { shape := some (2, 2), spacing := some (1, 1) }⟩

theorem exCol_full : FullMap exColA (1, 1) 0 0 2 2 ∧ FullMap exColB (1, 1) 0 0 2 2 :=
  ⟨⟨Sample.fullGrid_of_rows _ _ _ _ _ _ _ 4 rfl ⟨by decide, by decide⟩ (by decide) (by decide) (by decide) (by decide) (by decide +kernel) (by decide +kernel), rfl, rfl⟩,
   ⟨Sample.fullGrid_of_rows _ _ _ _ _ _ _ 4 rfl ⟨by decide, by decide⟩ (by decide) (by decide) (by decide) (by decide) (by decide +kernel) (by decide +kernel), rfl, rfl⟩⟩

-- the hypotheses are met
example := C161_average_same_order 1 [exColA, exColB] [] false (1, 1) 0 0 2 2 ["X", "Y", "M"] (by simp) (by norm_num) (by norm_num)
  (by intro f hf; simp only [List.mem_cons, List.not_mem_nil, or_false] at hf; rcases hf with rfl | rfl; exacts [⟨exCol_full.1, rfl⟩, ⟨exCol_full.2, rfl⟩])
  (by
    intro f hf f' hf'
    simp only [List.mem_cons, List.not_mem_nil, or_false] at hf hf'
    rcases hf with rfl | rfl <;> rcases hf' with rfl | rfl <;> (show ∀ t : ℕ, t < 4 → _; decide +kernel))
  (by simp) (by simp)

end Strata.Average
