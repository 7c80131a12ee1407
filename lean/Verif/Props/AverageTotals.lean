import Verif.Props.Average
/-!
# C172: averages conserve totals and stay in the range of the maps
-/
namespace Strata.Average
open Strata Strata.Flow Finset

/-- The sum over the bins of a map of the product of two fields, such as the momentum for flow and mass. -/
def totalProduct (r : Record) (l w : Label) : ℚ := ∑ s ∈ range (Flow.size r), val r l s * val r w s

/-- A function of the bins of a map, summed over a grid that has all positions of the map, is its sum over the map. -/
theorem sum_on_grid {f out : Record} {sp : ℚ × ℚ} {x0 y0 x1 y1 : ℚ} {nx ny mx my : ℕ} (hx : 0 < sp.1) (hy : 0 < sp.2) (hf : Lattice f sp x0 y0 nx ny) (ho : Lattice out sp x1 y1 mx my)
    (hcov : ∀ s, s < Flow.size f → ∃ t, t < mx * my ∧ val f "X" s = val out "X" t ∧ val f "Y" s = val out "Y" t) (φ ψ : ℕ → ℚ)
    (h1 : ∀ s t, s < Flow.size f → t < mx * my → val f "X" s = val out "X" t → val f "Y" s = val out "Y" t → φ t = ψ s)
    (h2 : ∀ t, t < mx * my → (∀ s, s < Flow.size f → ¬ (val f "X" s = val out "X" t ∧ val f "Y" s = val out "Y" t)) → φ t = 0) :
    ∑ t ∈ range (mx * my), φ t = ∑ s ∈ range (Flow.size f), ψ s := by
  choose! τ hτ using hcov
  symm
  refine sum_of_injOn τ ?_ ?_ ?_ ?_
  · intro a ha b hb e
    have ha' := mem_range.mp (mem_coe.mp ha)
    have hb' := mem_range.mp (mem_coe.mp hb)
    obtain ⟨-, a1, a2⟩ := hτ a ha'
    obtain ⟨-, b1, b2⟩ := hτ b hb'
    rw [hf.size] at ha' hb'
    exact hf.unique hx hy ha' hb' (by rw [a1, b1, e]) (by rw [a2, b2, e])
  · intro a ha
    exact mem_coe.mpr (mem_range.mpr (hτ a (mem_range.mp (mem_coe.mp ha))).1)
  · intro t ht hne
    have ht' := mem_range.mp ht
    refine h2 t ht' fun s hs hst => hne ⟨s, mem_coe.mpr (mem_range.mpr hs), ?_⟩
    obtain ⟨a0, a1, a2⟩ := hτ s hs
    exact ho.unique hx hy a0 ht' (by rw [← a1]; exact hst.1) (by rw [← a2]; exact hst.2)
  · intro s hs
    have hs' := mem_range.mp hs
    obtain ⟨a0, a1, a2⟩ := hτ s hs'
    exact (h1 s _ hs' a0 a1 a2).symm

theorem valueAt_of_row {f : Record} {sp : ℚ × ℚ} {x0 y0 : ℚ} {nx ny : ℕ} (hx : 0 < sp.1) (hy : 0 < sp.2) (hf : Lattice f sp x0 y0 nx ny) (l : Label) {s : ℕ} (hs : s < Flow.size f) {x y : ℚ}
    (e1 : val f "X" s = x) (e2 : val f "Y" s = y) : valueAt f l x y = val f l s := by
  subst e1 e2
  exact valueAt_row (co := ("X", "Y")) hf hx hy l (by rw [← hf.size]; exact hs)

theorem list_sum_swap (maps : List Flow) (n : ℕ) (g : Flow → ℕ → ℚ) : ∑ t ∈ range n, (maps.map fun f => g f t).sum = (maps.map fun f => ∑ t ∈ range n, g f t).sum := by
  induction maps with
  | nil => simp
  | cons f maps ih => simp only [List.map_cons, List.sum_cons, sum_add_distrib, ih]

/-- Sums of non-negative numbers vanish only if all do. -/
theorem sum_zero_all_maps {α : Type} (l : List α) (w : α → ℚ) (h : ∀ a ∈ l, 0 ≤ w a) (h0 : (l.map w).sum = 0) : ∀ a ∈ l, w a = 0 := by
  induction l with
  | nil => simp
  | cons b l ih =>
    rw [List.map_cons, List.sum_cons] at h0
    have hb := h b (List.mem_cons_self ..)
    have hl : 0 ≤ (l.map w).sum := List.sum_nonneg fun x hx => by
      obtain ⟨a, ha, rfl⟩ := List.mem_map.mp hx
      exact h a (List.mem_cons_of_mem _ ha)
    intro a ha
    rcases List.mem_cons.mp ha with rfl | ha
    · linarith
    · exact ih (fun a ha => h a (List.mem_cons_of_mem _ ha)) (by linarith) a ha

theorem valueAt_nonneg (f : Record) (w : Label) (h : ∀ s, s < Flow.size f → 0 ≤ val f w s) (x y : ℚ) : 0 ≤ valueAt f w x y := by
  unfold valueAt
  cases hf : (List.range (Flow.size f)).find? fun t => decide (val f ("X", "Y").1 t = x ∧ val f ("X", "Y").2 t = y) with
  | none => exact le_refl 0
  | some s => exact h s (List.mem_range.mp (List.mem_of_find?_eq_some hf))

/-- **C172.** The total of every field that is averaged arithmetically is the mean of the totals of the maps; for every weighted field with weights that are not negative the total of the field times
its weight (the momentum, for flow weighted by mass) is the mean of those of the maps. -/
theorem C172_totals (huge : ℚ) (maps : List Flow) (ws : List (Label × Label)) (ex : Bool) (sp : ℚ × ℚ)
    (ox oy : ℚ) (ls : List Label) (hne : maps ≠ []) (hx : 0 < sp.1) (hy : 0 < sp.2)
    (hm : ∀ f ∈ maps, GridMap f sp ∧ OnLattice sp ox oy f.data ∧ names f.data = ls)
    (hnd : (ws.map Prod.fst).Nodup)
    (hws : ∀ p ∈ ws, p.1 ∈ ls ∧ p.2 ∈ ls ∧ p.1 ≠ "X" ∧ p.1 ≠ "Y" ∧ p.2 ≠ "X" ∧ p.2 ≠ "Y" ∧ ∀ q ∈ ws, q.1 ≠ p.2) :
    ∃ out, averageFlowData huge maps ws ex = .ok out ∧
      (∀ l ∈ ls, l ≠ "X" → l ≠ "Y" → (∀ p ∈ ws, p.1 ≠ l) → total out.data l = (maps.map fun f => total f.data l).sum / maps.length) ∧
      ∀ p ∈ ws, (∀ f ∈ maps, ∀ s, s < Flow.size f.data → 0 ≤ val f.data p.2 s) →
        totalProduct out.data p.1 p.2 = (maps.map fun f => totalProduct f.data p.1 p.2).sum / maps.length := by
  obtain ⟨out, x0, y0, nx, ny, ho, hL, hnm, -, hcov, -, -, -, -, hplain, hwt⟩ := C22_average huge maps ws ex sp ox oy ls hne hx hy hm hnd hws
  have hn : (maps.length : ℚ) ≠ 0 := by simpa using hne
  have tot : ∀ (r : Record), Wf r → ∀ l ∈ names r, total r l = ∑ t ∈ range (Flow.size r), val r l t := fun r hw l hl => total_eq hw hl
  refine ⟨out, ho, ?_, ?_⟩
  · intro l hl hlx hly hlw
    rw [tot _ hL.wf l (by rw [hnm]; exact hl), hL.size, sum_congr rfl fun t ht => hplain l hl hlx hly hlw t (mem_range.mp ht), ← sum_div, list_sum_swap]
    congr 2
    refine List.map_congr_left fun f hf => ?_
    obtain ⟨⟨fx, fy, mx, my, -, -, hfl⟩, -, hfn⟩ := hm f hf
    rw [tot _ hfl.wf l (by rw [hfn]; exact hl)]
    refine sum_on_grid hx hy hfl hL (hcov f hf) _ _ ?_ ?_
    · intro s t hs _ e1 e2
      exact valueAt_of_row hx hy hfl l hs e1 e2
    · intro t _ hno
      exact valueAt_none (co := ("X", "Y")) l hno
  · intro p hp hpos
    obtain ⟨p1, p2, p3, p4, p5, p6, p7⟩ := hws p hp
    have hprod : ∀ t, t < nx * ny → val out.data p.1 t * val out.data p.2 t =
        (maps.map fun f => valueAt f.data p.1 (val out.data "X" t) (val out.data "Y" t) * valueAt f.data p.2 (val out.data "X" t) (val out.data "Y" t)).sum / maps.length := by
      intro t ht
      have hv := hplain p.2 p2 p5 p6 p7 t ht
      by_cases h0 : (maps.map fun f => valueAt f.data p.2 (val out.data "X" t) (val out.data "Y" t)).sum = 0
      · have hz := sum_zero_all_maps maps _ (fun f hf => valueAt_nonneg f.data p.2 (hpos f hf) _ _) h0
        rw [hv, h0, zero_div, mul_zero, List.sum_eq_zero, zero_div]
        intro y hy
        obtain ⟨f, hf, rfl⟩ := List.mem_map.mp hy
        rw [hz f hf, mul_zero]
      · rw [hwt p hp t ht h0, hv]
        field_simp
    unfold totalProduct
    rw [hL.size, sum_congr rfl fun t ht => hprod t (mem_range.mp ht), ← sum_div, list_sum_swap]
    congr 2
    refine List.map_congr_left fun f hf => ?_
    obtain ⟨⟨fx, fy, mx, my, -, -, hfl⟩, -, hfn⟩ := hm f hf
    refine sum_on_grid hx hy hfl hL (hcov f hf) _ _ ?_ ?_
    · intro s t hs _ e1 e2
      rw [valueAt_of_row hx hy hfl p.1 hs e1 e2, valueAt_of_row hx hy hfl p.2 hs e1 e2]
    · intro t _ hno
      rw [valueAt_none (co := ("X", "Y")) p.1 hno, zero_mul]

theorem mean_between {α : Type} (l : List α) (hne : l ≠ []) (v : α → ℚ) (lo hi : ℚ) (h : ∀ a ∈ l, lo ≤ v a ∧ v a ≤ hi) : lo ≤ (l.map v).sum / l.length ∧ (l.map v).sum / l.length ≤ hi := by
  have hn : (0 : ℚ) < l.length := by have := List.length_pos_iff.mpr hne; exact_mod_cast this
  have key : (l.length : ℚ) * lo ≤ (l.map v).sum ∧ (l.map v).sum ≤ l.length * hi := by
    clear hne hn
    induction l with
    | nil => simp
    | cons a l ih =>
      obtain ⟨i1, i2⟩ := ih fun b hb => h b (List.mem_cons_of_mem _ hb)
      obtain ⟨a1, a2⟩ := h a (List.mem_cons_self ..)
      simp only [List.map_cons, List.sum_cons, List.length_cons]
      push_cast
      constructor <;> linarith
  rw [le_div_iff₀ hn, div_le_iff₀ hn]
  constructor <;> linarith [key.1, key.2]

theorem weighted_between {α : Type} (l : List α) (v w : α → ℚ) (hw : ∀ a ∈ l, 0 ≤ w a) (h0 : (l.map w).sum ≠ 0) (lo hi : ℚ) (h : ∀ a ∈ l, 0 < w a → lo ≤ v a ∧ v a ≤ hi) :
    lo ≤ (l.map fun a => v a * w a).sum / (l.map w).sum ∧ (l.map fun a => v a * w a).sum / (l.map w).sum ≤ hi := by
  have hs : 0 < (l.map w).sum := lt_of_le_of_ne (List.sum_nonneg fun x hx => by
    obtain ⟨a, ha, rfl⟩ := List.mem_map.mp hx
    exact hw a ha) (Ne.symm h0)
  have key : lo * (l.map w).sum ≤ (l.map fun a => v a * w a).sum ∧ (l.map fun a => v a * w a).sum ≤ hi * (l.map w).sum := by
    clear h0 hs
    induction l with
    | nil => simp
    | cons a l ih =>
      obtain ⟨i1, i2⟩ := ih (fun b hb => hw b (List.mem_cons_of_mem _ hb)) fun b hb => h b (List.mem_cons_of_mem _ hb)
      have hwa := hw a (List.mem_cons_self ..)
      have ha : lo * w a ≤ v a * w a ∧ v a * w a ≤ hi * w a := by
        rcases hwa.eq_or_lt with e | e
        · rw [← e]; simp
        · obtain ⟨a1, a2⟩ := h a (List.mem_cons_self ..) e
          exact ⟨mul_le_mul_of_nonneg_right a1 hwa, mul_le_mul_of_nonneg_right a2 hwa⟩
      simp only [List.map_cons, List.sum_cons]
      constructor <;> linarith [ha.1, ha.2]
  rw [le_div_iff₀ hs, div_le_iff₀ hs]
  exact key

/-- **C172, range.** No averaged value lies outside the range of the values that the maps have at its position (0 outside a map); a weighted one not outside the range of those maps that have a
positive weight there. -/
theorem C172_range (huge : ℚ) (maps : List Flow) (ws : List (Label × Label)) (ex : Bool) (sp : ℚ × ℚ)
    (ox oy : ℚ) (ls : List Label) (hne : maps ≠ []) (hx : 0 < sp.1) (hy : 0 < sp.2)
    (hm : ∀ f ∈ maps, GridMap f sp ∧ OnLattice sp ox oy f.data ∧ names f.data = ls)
    (hnd : (ws.map Prod.fst).Nodup)
    (hws : ∀ p ∈ ws, p.1 ∈ ls ∧ p.2 ∈ ls ∧ p.1 ≠ "X" ∧ p.1 ≠ "Y" ∧ p.2 ≠ "X" ∧ p.2 ≠ "Y" ∧ ∀ q ∈ ws, q.1 ≠ p.2) :
    ∃ out, averageFlowData huge maps ws ex = .ok out ∧ ∀ t, t < Flow.size out.data → ∀ lo hi : ℚ,
      (∀ l ∈ ls, l ≠ "X" → l ≠ "Y" → (∀ p ∈ ws, p.1 ≠ l) →
        (∀ f ∈ maps, lo ≤ valueAt f.data l (val out.data "X" t) (val out.data "Y" t) ∧ valueAt f.data l (val out.data "X" t) (val out.data "Y" t) ≤ hi) →
        lo ≤ val out.data l t ∧ val out.data l t ≤ hi) ∧
      ∀ p ∈ ws, (∀ f ∈ maps, ∀ s, s < Flow.size f.data → 0 ≤ val f.data p.2 s) →
        (∃ f ∈ maps, 0 < valueAt f.data p.2 (val out.data "X" t) (val out.data "Y" t)) →
        (∀ f ∈ maps, 0 < valueAt f.data p.2 (val out.data "X" t) (val out.data "Y" t) →
          lo ≤ valueAt f.data p.1 (val out.data "X" t) (val out.data "Y" t) ∧ valueAt f.data p.1 (val out.data "X" t) (val out.data "Y" t) ≤ hi) →
        lo ≤ val out.data p.1 t ∧ val out.data p.1 t ≤ hi := by
  obtain ⟨out, x0, y0, nx, ny, ho, hL, hnm, -, hcov, -, -, -, -, hplain, hwt⟩ := C22_average huge maps ws ex sp ox oy ls hne hx hy hm hnd hws
  refine ⟨out, ho, fun t ht lo hi => ⟨?_, ?_⟩⟩
  · intro l hl hlx hly hlw hb
    rw [hplain l hl hlx hly hlw t (by rw [← hL.size]; exact ht)]
    exact mean_between maps hne _ lo hi hb
  · intro p hp hpos ⟨f, hf, hfp⟩ hb
    have hnn : ∀ f ∈ maps, 0 ≤ valueAt f.data p.2 (val out.data "X" t) (val out.data "Y" t) := fun f hf => valueAt_nonneg f.data p.2 (hpos f hf) _ _
    have h0 : (maps.map fun f => valueAt f.data p.2 (val out.data "X" t) (val out.data "Y" t)).sum ≠ 0 := fun h0 => by
      have := sum_zero_all_maps maps _ hnn h0 f hf
      rw [this] at hfp
      exact lt_irrefl _ hfp
    rw [hwt p hp t (by rw [← hL.size]; exact ht) h0]
    exact weighted_between maps _ _ hnn h0 lo hi hb

/-! ### Cases -/

/-- Two maps of masses 10 and 10 and momenta 16 and 66: the average has mass 10 and momentum 41. -/
example : (averageFlowData 999 [exA, exB] [("U", "M")]).toOption.map (fun out => (total out.data "M", totalProduct out.data "U" "M")) = some (10, 41) ∧
    total exA.data "M" = 10 ∧ total exB.data "M" = 10 ∧ totalProduct exA.data "U" "M" = 16 ∧ totalProduct exB.data "U" "M" = 66 := by
  refine ⟨?_, ?_, ?_, ?_, ?_⟩ <;> decide +kernel

example : ∃ out, averageFlowData 999 [exA, exB] [("U", "M")] = .ok out ∧ total out.data "M" = 10 := by
  obtain ⟨out, h, h1, -⟩ := C172_totals 999 [exA, exB] [("U", "M")] false (1, 2) 1 3 _ (by simp) (by decide +kernel) (by decide +kernel) exAB_hyp (by simp) (by decide)
  exact ⟨out, h, by rw [h1 "M" (by decide) (by decide) (by decide) (by decide)]; decide +kernel⟩

end Strata.Average
