import Verif.Props.AverageLaws
/-!
# C129: combining bins in stages, combined bins and averages
-/
namespace Strata.SimpleAverage
open Strata Strata.Flow Strata.Average Strata.Gmx Strata.Simple

open Finset in
/-- Blocks of blocks. -/
theorem block_block (a b c e : ℕ) (f : ℕ → ℕ → ℚ) (I J : ℕ) : block c e (block a b f) I J = block (a * c) (b * e) f I J := by
  unfold block
  rw [← sum_blocks1 a c fun s => ∑ w ∈ range (b * e), f (a * c * I + s) (b * e * J + w)]
  refine Finset.sum_congr rfl fun p _ => ?_
  rw [Finset.sum_comm]
  refine Finset.sum_congr rfl fun u _ => ?_
  rw [← sum_blocks1 b e fun w => f (a * c * I + (a * p + u)) (b * e * J + w)]
  refine Finset.sum_congr rfl fun q _ => Finset.sum_congr rfl fun v _ => ?_
  rw [show a * (c * I + p) + u = a * c * I + (a * p + u) by ring, show b * (e * J + q) + v = b * e * J + (b * q + v) by ring]

open Finset in
theorem block_div (a b : ℕ) (f : ℕ → ℕ → ℚ) (k : ℚ) (I J : ℕ) : block a b (fun i j => f i j / k) I J = block a b f I J / k := by
  unfold block
  rw [Finset.sum_div]
  refine Finset.sum_congr rfl fun p _ => ?_
  rw [Finset.sum_div]

open Finset in
theorem block_sum (a b : ℕ) {α : Type} (l : List α) (f : α → ℕ → ℕ → ℚ) (I J : ℕ) :
    block a b (fun i j => (l.map fun x => f x i j).sum) I J = (l.map fun x => block a b (f x) I J).sum := by
  induction l with
  | nil => simp [block]
  | cons x l ih =>
    simp only [List.map_cons, List.sum_cons]
    rw [← ih]
    unfold block
    simp only [Finset.sum_add_distrib]

open Finset in
theorem block_nonneg (a b : ℕ) (f : ℕ → ℕ → ℚ) (I J SX SY : ℕ) (hI : I < SX / a) (hJ : J < SY / b) (h : ∀ i j, i < SX → j < SY → 0 ≤ f i j) : 0 ≤ block a b f I J := by
  have inside : ∀ (n S K a : ℕ), K < S / n → a < n → n * K + a < S := by
    intro n S K a hK ha
    have h1 : n * (K + 1) ≤ n * (S / n) := Nat.mul_le_mul_left n hK
    have h2 : n * (S / n) ≤ S := Nat.mul_div_le S n
    rw [Nat.mul_succ] at h1
    omega
  unfold block
  exact Finset.sum_nonneg fun u hu => Finset.sum_nonneg fun v hv => h _ _ (inside _ _ _ _ hI (Finset.mem_range.mp hu)) (inside _ _ _ _ hJ (Finset.mem_range.mp hv))

/-- What `combine_bins` returns. -/
structure IsCombined (d : Record) (i : CInfo) (a b : ℕ) (r : Record) (j : CInfo) : Prop where
  shape : j.shape = (i.shape.1 / a, i.shape.2 / b)
  spacing : j.spacing = (i.spacing.1 * a, i.spacing.2 * b)
  origin : j.origin = (i.origin.1 + i.spacing.1 * (((a : ℚ) - 1) / 2), i.origin.2 + i.spacing.2 * (((b : ℚ) - 1) / 2))
  bins : j.numBins = j.shape.1 * j.shape.2
  fields : names r = ["X", "Y", "N", "M", "T", "U", "V"]
  sizes : ∀ c ∈ r, c.2.length = j.shape.1 * j.shape.2
  x : ∀ I J, I < j.shape.1 → J < j.shape.2 → cell r "X" j.shape.2 I J = j.origin.1 + j.spacing.1 * (I : ℚ)
  y : ∀ I J, I < j.shape.1 → J < j.shape.2 → cell r "Y" j.shape.2 I J = j.origin.2 + j.spacing.2 * (J : ℚ)
  sums : ∀ l ∈ ["M", "N"], ∀ I J, I < j.shape.1 → J < j.shape.2 → cell r l j.shape.2 I J = block a b (cell d l i.shape.2) I J
  means : ∀ p ∈ [("U", "M"), ("V", "M"), ("T", "N")], ∀ I J, I < j.shape.1 → J < j.shape.2 → cell r p.1 j.shape.2 I J =
    if block a b (cell d p.2 i.shape.2) I J = 0 then 0
    else block a b (fun u v => cell d p.1 i.shape.2 u v * cell d p.2 i.shape.2 u v) I J / block a b (cell d p.2 i.shape.2) I J

theorem combineBins_is {d : Record} {i : CInfo} {a b : ℕ} (ha : 0 < a) (hb : 0 < b) (h : HasFields d (i.shape.1 * i.shape.2)) {r : Record} {j : CInfo}
    (hr : combineBins d i a b = .ok (r, j)) : IsCombined d i a b r j := by
  obtain ⟨out, info, h0, h1, h2, h3, h4, h5, h6, h7⟩ := C55_combined d i a b ha hb h
  rw [hr] at h0
  simp only [Except.ok.injEq, Prod.mk.injEq] at h0
  obtain ⟨rfl, rfl⟩ := h0
  refine ⟨h1, h2, h4, h3, h5, ?_, fun I J hI hJ => (h7 I J hI hJ).1, fun I J hI hJ => (h7 I J hI hJ).2.1, ?_, ?_⟩
  · rw [← h3]; exact h6
  · intro l hl I J hI hJ
    refine (h7 I J hI hJ).2.2.1 l ?_
    simp only [List.mem_cons, List.not_mem_nil, or_false] at hl ⊢
    tauto
  · intro p hp I J hI hJ
    refine (h7 I J hI hJ).2.2.2 p ?_
    simp only [List.mem_cons, List.not_mem_nil, or_false] at hp ⊢
    tauto

theorem combineBins_returns {d : Record} {i : CInfo} {a b : ℕ} (ha : 0 < a) (hb : 0 < b) (h : HasFields d (i.shape.1 * i.shape.2)) :
    ∃ r j, combineBins d i a b = .ok (r, j) := by
  obtain ⟨out, info, h0, -⟩ := C55_combined d i a b ha hb h
  exact ⟨out, info, h0⟩

theorem IsCombined.hasFields {d : Record} {i : CInfo} {a b : ℕ} {r : Record} {j : CInfo} (h : IsCombined d i a b r j) : HasFields r (j.shape.1 * j.shape.2) := by
  intro l hl
  have hl' : l ∈ names r := by
    rw [h.fields]
    simp only [List.mem_cons, List.not_mem_nil, or_false] at hl ⊢
    tauto
  obtain ⟨c', hc'⟩ := (col?_isSome_iff r l).mpr hl'
  exact ⟨c', hc', h.sizes _ (lookup_mem hc')⟩

theorem cell_row (d : Record) (l : Label) {ny t : ℕ} : val d l t = cell d l ny (t / ny) (t % ny) := by
  unfold cell
  rw [Nat.mul_comm, Nat.div_add_mod]

theorem weighted_cell {d : Record} {p q : ℕ} (h : Weighted d (p * q)) {l : Label} (hl : l ∈ ["M", "N"]) : ∀ i j, i < p → j < q → 0 ≤ cell d l q i j := by
  intro i j hi hj
  refine h l hl _ ?_
  calc i * q + j < i * q + q := by omega
    _ = (i + 1) * q := by ring
    _ ≤ p * q := Nat.mul_le_mul_right q hi

theorem IsCombined.nonneg {d : Record} {i : CInfo} {a b : ℕ} {r : Record} {j : CInfo} (h : IsCombined d i a b r j) (hw : Weighted d (i.shape.1 * i.shape.2)) :
    Weighted r (j.shape.1 * j.shape.2) := by
  intro l hl t ht
  obtain ⟨h1, h2⟩ := div_mod_lt ht
  rw [cell_row r l (ny := j.shape.2), h.sums l hl _ _ h1 h2]
  rw [h.shape] at h1 h2 ⊢
  exact block_nonneg a b _ _ _ i.shape.1 i.shape.2 h1 h2 (weighted_cell hw hl)

/-- Momentum and the like are added. -/
theorem IsCombined.momentum {d : Record} {i : CInfo} {a b : ℕ} {r : Record} {j : CInfo} (h : IsCombined d i a b r j) (hw : Weighted d (i.shape.1 * i.shape.2))
    {p : Label × Label} (hp : p ∈ [("U", "M"), ("V", "M"), ("T", "N")]) {I J : ℕ} (hI : I < j.shape.1) (hJ : J < j.shape.2) :
    cell r p.1 j.shape.2 I J * cell r p.2 j.shape.2 I J = block a b (fun u v => cell d p.1 i.shape.2 u v * cell d p.2 i.shape.2 u v) I J := by
  rw [h.means p hp I J hI hJ, h.sums p.2 (weight_mem hp) I J hI hJ]
  rw [h.shape] at hI hJ
  by_cases hz : block a b (cell d p.2 i.shape.2) I J = 0
  · rw [if_pos hz, zero_mul]
    symm
    refine block_zero a b I J _ _ ?_ hz
    intro u v hu hv
    have inside : ∀ (n S K a : ℕ), K < S / n → a < n → n * K + a < S := by
      intro n S K a hK ha
      have h1 : n * (K + 1) ≤ n * (S / n) := Nat.mul_le_mul_left n hK
      have h2 : n * (S / n) ≤ S := Nat.mul_div_le S n
      rw [Nat.mul_succ] at h1
      omega
    exact weighted_cell hw (weight_mem hp) _ _ (inside _ _ _ _ hI hu) (inside _ _ _ _ hJ hv)
  · rw [if_neg hz, div_mul_cancel₀ _ hz]

theorem combined_ext {r r' : Record} {n : ℕ} (h1 : names r = ["X", "Y", "N", "M", "T", "U", "V"]) (h2 : ∀ c ∈ r, c.2.length = n)
    (h1' : names r' = ["X", "Y", "N", "M", "T", "U", "V"]) (h2' : ∀ c ∈ r', c.2.length = n)
    (hv : ∀ l ∈ ["X", "Y", "N", "M", "T", "U", "V"], ∀ t, t < n → val r l t = val r' l t) : r = r' := by
  have hs : ∀ q : Record, names q = ["X", "Y", "N", "M", "T", "U", "V"] → (∀ c ∈ q, c.2.length = n) → Wf q ∧ Flow.size q = n := by
    intro q hq hl
    obtain ⟨c, q', rfl⟩ : ∃ c q', q = c :: q' := by
      cases q with
      | nil => cases hq
      | cons c q' => exact ⟨c, q', rfl⟩
    have hsz : Flow.size (c :: q') = n := hl c (by simp)
    exact ⟨⟨by rw [hq]; decide, fun c' hc' => by rw [hsz]; exact hl c' hc'⟩, hsz⟩
  obtain ⟨w1, z1⟩ := hs r h1 h2
  obtain ⟨w2, z2⟩ := hs r' h1' h2'
  refine record_ext_val w1 w2 (h1.trans h1'.symm) (z1.trans z2.symm) ?_
  intro l hl t ht
  rw [h1] at hl
  exact hv l hl t (by rwa [z1] at ht)

/-- **C129, in stages.** Combining `a` × `b` bins and then `c` × `e` of the combined bins gives the same map and the same information as combining
`a c` × `b e` bins at once, also if the grid is not divided evenly. -/
theorem C129_stages (d : Record) (i : CInfo) (a b c e : ℕ) (ha : 0 < a) (hb : 0 < b) (hc : 0 < c) (he : 0 < e) (hf : HasFields d (i.shape.1 * i.shape.2))
    (hw : Weighted d (i.shape.1 * i.shape.2)) :
    ∃ d1 i1 d2 i2, combineBins d i a b = .ok (d1, i1) ∧ combineBins d1 i1 c e = .ok (d2, i2) ∧ combineBins d i (a * c) (b * e) = .ok (d2, i2) := by
  obtain ⟨d1, i1, e1⟩ := combineBins_returns ha hb hf
  have H1 := combineBins_is ha hb hf e1
  obtain ⟨d2, i2, e2⟩ := combineBins_returns hc he H1.hasFields
  have H2 := combineBins_is hc he H1.hasFields e2
  obtain ⟨d3, i3, e3⟩ := combineBins_returns (Nat.mul_pos ha hc) (Nat.mul_pos hb he) hf
  have H3 := combineBins_is (Nat.mul_pos ha hc) (Nat.mul_pos hb he) hf e3
  have hshape : i2.shape = i3.shape := by
    rw [H2.shape, H1.shape, H3.shape, Nat.div_div_eq_div_mul, Nat.div_div_eq_div_mul]
  have hspacing : i2.spacing = i3.spacing := by
    rw [H2.spacing, H1.spacing, H3.spacing]
    push_cast
    simp only [mul_assoc]
  have horigin : i2.origin = i3.origin := by
    rw [H2.origin, H1.origin, H1.spacing, H3.origin]
    push_cast
    simp only [Prod.mk.injEq]
    constructor <;> ring
  have hi : i2 = i3 := by
    have hb' : i2.numBins = i3.numBins := by rw [H2.bins, H3.bins, hshape]
    cases i2; cases i3
    simp only at hshape hspacing horigin hb'
    subst hshape hspacing horigin hb'
    rfl
  refine ⟨d1, i1, d2, i2, e1, e2, ?_⟩
  rw [e3, hi]
  refine congrArg Except.ok (congrArg₂ Prod.mk ?_ rfl)
  have s2 := H2.sizes
  rw [hshape] at s2
  refine (combined_ext H2.fields s2 H3.fields H3.sizes ?_).symm
  intro l hl t ht
  obtain ⟨hI, hJ⟩ := div_mod_lt ht
  rw [cell_row d2 l (ny := i3.shape.2), cell_row d3 l (ny := i3.shape.2)]
  have hblk : ∀ l ∈ ["M", "N"], ∀ I J, I < i3.shape.1 → J < i3.shape.2 →
      block c e (cell d1 l i1.shape.2) I J = block (a * c) (b * e) (cell d l i.shape.2) I J := by
    intro l hl I J hI hJ
    rw [← block_block]
    refine block_congr c e I J i1.shape.1 i1.shape.2 ?_ ?_ _ _ ?_
    · rw [← hshape, H2.shape] at hI; exact hI
    · rw [← hshape, H2.shape] at hJ; exact hJ
    · intro u v hu hv
      exact H1.sums l hl u v hu hv
  have hblk2 : ∀ p ∈ [("U", "M"), ("V", "M"), ("T", "N")], ∀ I J, I < i3.shape.1 → J < i3.shape.2 →
      block c e (fun u v => cell d1 p.1 i1.shape.2 u v * cell d1 p.2 i1.shape.2 u v) I J =
        block (a * c) (b * e) (fun u v => cell d p.1 i.shape.2 u v * cell d p.2 i.shape.2 u v) I J := by
    intro p hp I J hI hJ
    rw [← block_block]
    refine block_congr c e I J i1.shape.1 i1.shape.2 ?_ ?_ _ _ ?_
    · rw [← hshape, H2.shape] at hI; exact hI
    · rw [← hshape, H2.shape] at hJ; exact hJ
    · intro u v hu hv
      exact H1.momentum hw hp hu hv
  rw [← hi] at hI hJ ⊢
  have hmeans : ∀ p ∈ [("U", "M"), ("V", "M"), ("T", "N")], cell d2 p.1 i2.shape.2 (t / i2.shape.2) (t % i2.shape.2) =
      cell d3 p.1 i2.shape.2 (t / i2.shape.2) (t % i2.shape.2) := by
    intro p hp
    rw [H2.means p hp _ _ hI hJ]
    rw [hi] at hI hJ ⊢
    rw [H3.means p hp _ _ hI hJ, hblk _ (weight_mem hp) _ _ hI hJ, hblk2 p hp _ _ hI hJ]
  have hsums : ∀ l ∈ ["M", "N"], cell d2 l i2.shape.2 (t / i2.shape.2) (t % i2.shape.2) =
      cell d3 l i2.shape.2 (t / i2.shape.2) (t % i2.shape.2) := by
    intro l hl
    rw [H2.sums l hl _ _ hI hJ]
    rw [hi] at hI hJ ⊢
    rw [H3.sums l hl _ _ hI hJ, hblk l hl _ _ hI hJ]
  have hx : cell d2 "X" i2.shape.2 (t / i2.shape.2) (t % i2.shape.2) = cell d3 "X" i2.shape.2 (t / i2.shape.2) (t % i2.shape.2) := by
    rw [H2.x _ _ hI hJ]
    rw [hi] at hI hJ ⊢
    rw [H3.x _ _ hI hJ]
  have hy : cell d2 "Y" i2.shape.2 (t / i2.shape.2) (t % i2.shape.2) = cell d3 "Y" i2.shape.2 (t / i2.shape.2) (t % i2.shape.2) := by
    rw [H2.y _ _ hI hJ]
    rw [hi] at hI hJ ⊢
    rw [H3.y _ _ hI hJ]
  simp only [List.mem_cons, List.not_mem_nil, or_false] at hl
  rcases hl with rfl | rfl | rfl | rfl | rfl | rfl | rfl
  · exact hx
  · exact hy
  · exact hsums "N" (by simp)
  · exact hsums "M" (by simp)
  · exact hmeans ("T", "N") (by simp)
  · exact hmeans ("U", "M") (by simp)
  · exact hmeans ("V", "M") (by simp)

/-- **C129, averages of combined maps.** For maps on one grid, combining the bins of the average and averaging the maps with combined bins give the same
values of every field in every bin; both succeed for every list of maps the average accepts. -/
theorem C129_average_of_combined (ds : List Record) (i : CInfo) (a b : ℕ) (ha : 0 < a) (hb : 0 < b) (hne : ds ≠ []) (hf : ∀ d ∈ ds, HasFields d (i.shape.1 * i.shape.2))
    (hw : ∀ d ∈ ds, Weighted d (i.shape.1 * i.shape.2)) (atol rtol : ℚ) (hat : 0 ≤ atol) (hrt : 0 ≤ rtol) (r : Record) (hr : averageData ds atol rtol = .ok r) :
    ∃ out info outs r2, combineBins r i a b = .ok (out, info) ∧ List.Forall₂ (fun d o => combineBins d i a b = .ok (o, info)) ds outs ∧
      averageData outs atol rtol = .ok r2 ∧
      ∀ l ∈ ["X", "Y", "M", "N", "U", "V", "T"], ∀ t, t < info.shape.1 * info.shape.2 → val r2 l t = val out l t := by
  have hR := averageData_is hne hf hw hr
  obtain ⟨out, info, e1⟩ := combineBins_returns ha hb hR.hasFields
  have H1 := combineBins_is ha hb hR.hasFields e1
  have hall : ∀ d ∈ ds, ∃ o, combineBins d i a b = .ok (o, info) := by
    intro d hd
    obtain ⟨o, j, e2⟩ := combineBins_returns ha hb (hf d hd)
    have H2 := combineBins_is ha hb (hf d hd) e2
    refine ⟨o, ?_⟩
    rw [e2]
    have h1 : j.shape = info.shape := by rw [H1.shape, H2.shape]
    have h2 : j.spacing = info.spacing := by rw [H1.spacing, H2.spacing]
    have h3 : j.origin = info.origin := by rw [H1.origin, H2.origin]
    have h4 : j.numBins = info.numBins := by rw [H1.bins, H2.bins, h1]
    cases j; cases info
    simp only at h1 h2 h3 h4
    subst h1 h2 h3 h4
    rfl
  obtain ⟨outs, hout⟩ : ∃ outs, List.Forall₂ (fun d o => combineBins d i a b = .ok (o, info)) ds outs := by
    clear hR e1 H1 hne hr
    induction ds with
    | nil => exact ⟨[], .nil⟩
    | cons d ds ih =>
      obtain ⟨o, ho⟩ := hall d (by simp)
      obtain ⟨os, hos⟩ := ih (fun d hd => hf d (by simp [hd])) (fun d hd => hw d (by simp [hd])) (fun d hd => hall d (by simp [hd]))
      exact ⟨o :: os, .cons ho hos⟩
  have hC : List.Forall₂ (fun d o => d ∈ ds ∧ IsCombined d i a b o info) ds outs := by
    rw [List.forall₂_iff_get] at hout ⊢
    refine ⟨hout.1, ?_⟩
    intro k hk hk'
    have hm : ds.get ⟨k, hk⟩ ∈ ds := List.get_mem _ _
    exact ⟨hm, combineBins_is ha hb (hf _ hm) (hout.2 k hk hk')⟩
  have hmem : ∀ o ∈ outs, ∃ d ∈ ds, IsCombined d i a b o info := by
    intro o ho
    obtain ⟨k, hk, rfl⟩ := List.getElem_of_mem ho
    rw [List.forall₂_iff_get] at hC
    have := hC.2 k (by rw [hC.1]; exact hk) hk
    exact ⟨_, this.1, this.2⟩
  have hlen : outs.length = ds.length := hout.length_eq.symm
  have hne2 : outs ≠ [] := by
    rintro rfl
    exact hne (List.eq_nil_of_length_eq_zero hlen.symm)
  have hf2 : ∀ o ∈ outs, HasFields o (info.shape.1 * info.shape.2) := fun o ho => by obtain ⟨d, -, h⟩ := hmem o ho; exact h.hasFields
  have hw2 : ∀ o ∈ outs, Weighted o (info.shape.1 * info.shape.2) := fun o ho => by obtain ⟨d, hd, h⟩ := hmem o ho; exact h.nonneg (hw d hd)
  have hxy : ∀ o ∈ outs, ∀ t, t < info.shape.1 * info.shape.2 → val o "X" t = val out "X" t ∧ val o "Y" t = val out "Y" t := by
    intro o ho t ht
    obtain ⟨d, -, h⟩ := hmem o ho
    obtain ⟨hI, hJ⟩ := div_mod_lt ht
    rw [cell_row o "X" (ny := info.shape.2), cell_row out "X" (ny := info.shape.2), cell_row o "Y" (ny := info.shape.2), cell_row out "Y" (ny := info.shape.2),
      h.x _ _ hI hJ, h.y _ _ hI hJ, H1.x _ _ hI hJ, H1.y _ _ hI hJ]
    exact ⟨rfl, rfl⟩
  obtain ⟨r2, hr2⟩ : ∃ r2, averageData outs atol rtol = .ok r2 := by
    obtain ⟨o0, rest, hos⟩ := List.exists_cons_of_ne_nil hne2
    rw [hos] at hf2 hxy ⊢
    obtain ⟨r2, hr2, -⟩ := C54_average o0 rest _ atol rtol hf2 (by
      intro o ho l hl t ht
      have e : val o0 l t = val o l t := by
        simp only [List.mem_cons, List.not_mem_nil, or_false] at hl
        rcases hl with rfl | rfl
        · rw [(hxy o0 (by simp) t ht).1, (hxy o (by simp [ho]) t ht).1]
        · rw [(hxy o0 (by simp) t ht).2, (hxy o (by simp [ho]) t ht).2]
      rw [e, sub_self, abs_zero]
      positivity)
    exact ⟨r2, hr2⟩
  have hR2 := averageData_is hne2 hf2 hw2 hr2
  refine ⟨out, info, outs, r2, e1, hout, hr2, ?_⟩
  intro l hl t ht
  obtain ⟨hI, hJ⟩ := div_mod_lt ht
  have hsum : ∀ w ∈ ["M", "N"], sumOver outs w t = (ds.map fun d => block a b (cell d w i.shape.2) (t / info.shape.2) (t % info.shape.2)).sum := by
    intro w hwm
    unfold sumOver
    symm
    refine sum_forall₂ (hC.imp ?_)
    rintro d o ⟨-, h⟩
    rw [cell_row o w (ny := info.shape.2), h.sums w hwm _ _ hI hJ]
  have hsum2 : ∀ p ∈ [("U", "M"), ("V", "M"), ("T", "N")], sumOver2 outs p.1 p.2 t =
      (ds.map fun d => block a b (fun u v => cell d p.1 i.shape.2 u v * cell d p.2 i.shape.2 u v) (t / info.shape.2) (t % info.shape.2)).sum := by
    intro p hp
    unfold sumOver2
    symm
    refine sum_forall₂ (hC.imp ?_)
    rintro d o ⟨hd, h⟩
    rw [cell_row o p.1 (ny := info.shape.2), cell_row o p.2 (ny := info.shape.2), h.momentum (hw d hd) hp hI hJ]
  have hI' : t / info.shape.2 < i.shape.1 / a := by have := hI; rw [H1.shape] at this ⊢; exact this
  have hJ' : t % info.shape.2 < i.shape.2 / b := by have := hJ; rw [H1.shape] at this ⊢; exact this
  have inside : ∀ u v, u < i.shape.1 → v < i.shape.2 → u * i.shape.2 + v < i.shape.1 * i.shape.2 := by
    intro u v hu hv
    calc u * i.shape.2 + v < u * i.shape.2 + i.shape.2 := by omega
      _ = (u + 1) * i.shape.2 := by ring
      _ ≤ _ := Nat.mul_le_mul_right _ hu
  have hb1 : ∀ w ∈ ["M", "N"], block a b (cell r w i.shape.2) (t / info.shape.2) (t % info.shape.2) = sumOver outs w t / (ds.length : ℚ) := by
    intro w hwm
    rw [hsum w hwm, ← block_sum, ← block_div]
    refine block_congr a b _ _ i.shape.1 i.shape.2 hI' hJ' _ _ ?_
    intro u v hu hv
    exact hR.mean w hwm _ (inside u v hu hv)
  have hb2 : ∀ p ∈ [("U", "M"), ("V", "M"), ("T", "N")], block a b (fun u v => cell r p.1 i.shape.2 u v * cell r p.2 i.shape.2 u v) (t / info.shape.2) (t % info.shape.2) =
      sumOver2 outs p.1 p.2 t / (ds.length : ℚ) := by
    intro p hp
    rw [hsum2 p hp, ← block_sum, ← block_div]
    refine block_congr a b _ _ i.shape.1 i.shape.2 hI' hJ' _ _ ?_
    intro u v hu hv
    exact hR.momentum hw hp (inside u v hu hv)
  have hk : (ds.length : ℚ) ≠ 0 := by
    have := List.length_pos_of_ne_nil hne
    positivity
  have hmean : ∀ w ∈ ["M", "N"], val r2 w t = val out w t := by
    intro w hwm
    rw [hR2.mean w hwm t ht, cell_row out w (ny := info.shape.2), H1.sums w hwm _ _ hI hJ, hb1 w hwm, hlen]
  have hwt : ∀ p ∈ [("U", "M"), ("V", "M"), ("T", "N")], val r2 p.1 t = val out p.1 t := by
    intro p hp
    rw [hR2.weighted p hp t ht, cell_row out p.1 (ny := info.shape.2), H1.means p hp _ _ hI hJ, hb1 p.2 (weight_mem hp), hb2 p hp]
    by_cases hz : sumOver outs p.2 t = 0
    · rw [if_pos hz, if_pos (by rw [hz, zero_div])]
    · rw [if_neg hz, if_neg (div_ne_zero hz hk), div_div_div_cancel_right₀ hk]
  have hxy2 : val r2 "X" t = val out "X" t ∧ val r2 "Y" t = val out "Y" t := by
    obtain ⟨o0, rest, hos⟩ := List.exists_cons_of_ne_nil hne2
    obtain ⟨h1, h2⟩ := hR2.first o0 rest hos t ht
    obtain ⟨h3, h4⟩ := hxy o0 (by rw [hos]; simp) t ht
    exact ⟨h1.trans h3, h2.trans h4⟩
  simp only [List.mem_cons, List.not_mem_nil, or_false] at hl
  rcases hl with rfl | rfl | rfl | rfl | rfl | rfl | rfl
  · exact hxy2.1
  · exact hxy2.2
  · exact hmean "M" (by simp)
  · exact hmean "N" (by simp)
  · exact hwt ("U", "M") (by simp)
  · exact hwt ("V", "M") (by simp)
  · exact hwt ("T", "N") (by simp)

/-- With negative numbers the laws fail: two bins whose masses cancel lose their momentum when combined first. -/
theorem C129_negative_weights_counterexample : ∃ (d d1 d2 d3 : Record) (i i1 i2 i3 : CInfo), HasFields d 4 ∧ combineBins d i 2 1 = .ok (d1, i1) ∧ combineBins d1 i1 2 1 = .ok (d2, i2) ∧
    combineBins d i 4 1 = .ok (d3, i3) ∧ val d2 "U" 0 ≠ val d3 "U" 0 := by
  refine ⟨[("X", [0, 1, 2, 3]), ("Y", [0, 0, 0, 0]), ("N", [1, 1, 1, 1]), ("T", [1, 1, 1, 1]), ("M", [1, -1, 1, 1]), ("U", [1, 2, 3, 3]), ("V", [0, 0, 0, 0])],
    [("X", [1 / 2, 5 / 2]), ("Y", [0, 0]), ("N", [2, 2]), ("M", [0, 2]), ("T", [1, 1]), ("U", [0, 3]), ("V", [0, 0])],
    [("X", [3 / 2]), ("Y", [0]), ("N", [4]), ("M", [2]), ("T", [1]), ("U", [3]), ("V", [0])],
    [("X", [3 / 2]), ("Y", [0]), ("N", [4]), ("M", [2]), ("T", [1]), ("U", [5 / 2]), ("V", [0])],
    ⟨(4, 1), (1, 1), (0, 0), 4⟩, ⟨(2, 1), (2, 1), (1 / 2, 0), 2⟩, ⟨(1, 1), (4, 1), (3 / 2, 0), 1⟩, ⟨(1, 1), (4, 1), (3 / 2, 0), 1⟩, hasFields_of _ _ (by decide +kernel), ?_, ?_, ?_, ?_⟩ <;>
    decide +kernel

/-- A map of 5 × 2 bins combined in pairs twice. -/
example : ∃ d : Record, HasFields d (5 * 2) ∧ Weighted d (5 * 2) ∧
    ((combineBins d ⟨(5, 2), (1, 1), (0, 0), 10⟩ 2 1 >>= fun p => combineBins p.1 p.2 2 2) = combineBins d ⟨(5, 2), (1, 1), (0, 0), 10⟩ 4 2) ∧
    ((combineBins d ⟨(5, 2), (1, 1), (0, 0), 10⟩ 4 2).map fun p => (p.2.shape, p.2.origin, val p.1 "U" 0)) = .ok ((1, 1), (3 / 2, 1 / 2), 118 / 25) := by
  refine ⟨[("X", [0, 0, 1, 1, 2, 2, 3, 3, 4, 4]), ("Y", [0, 1, 0, 1, 0, 1, 0, 1, 0, 1]), ("N", [1, 1, 1, 1, 1, 1, 1, 1, 1, 1]), ("T", [1, 1, 1, 1, 1, 1, 1, 1, 1, 1]),
    ("M", [0, 1, 2, 3, 4, 5, 6, 4, 8, 9]), ("U", [1, 2, 3, 2, 5, 6, 7, 3, 9, 1]), ("V", [0, 0, 0, 0, 0, 0, 0, 0, 0, 1])], hasFields_of _ _ (by decide +kernel), ?_, ?_, ?_⟩
  · unfold Weighted; decide +kernel
  · decide +kernel
  · decide +kernel
end Strata.SimpleAverage
