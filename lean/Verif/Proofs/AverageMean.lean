import Verif.Proofs.Average
/-! # Lemmas about `transfer_data` and `average_data` -/
namespace Strata.Average
open Strata Strata.Flow Finset

/-! ## Rows of a lattice -/

theorem val_eq_zero_of_not_mem {r : Record} {l : Label} (h : l ∉ names r) (t : ℕ) : val r l t = 0 := by
  simp [val, (col?_none_iff r l).mpr h]

theorem Lattice.row {r : Record} {sp : ℚ × ℚ} {x0 y0 : ℚ} {nx ny : ℕ} {co : Label × Label} (h : Lattice r sp x0 y0 nx ny co)
    {i j : ℕ} (hi : i < nx) (hj : j < ny) :
    val r co.1 (j * nx + i) = x0 + sp.1 * (i : ℚ) ∧ val r co.2 (j * nx + i) = y0 + sp.2 * (j : ℚ) := by
  have := grid_lt hi hj
  rw [h.x _ this, h.y _ this, grid_mod hi, grid_div hi]
  exact ⟨rfl, rfl⟩

theorem Lattice.unique {r : Record} {sp : ℚ × ℚ} {x0 y0 : ℚ} {nx ny : ℕ} {co : Label × Label} (h : Lattice r sp x0 y0 nx ny co)
    (hx : 0 < sp.1) (hy : 0 < sp.2) {s t : ℕ} (hs : s < nx * ny) (ht : t < nx * ny)
    (e1 : val r co.1 s = val r co.1 t) (e2 : val r co.2 s = val r co.2 t) : s = t := by
  rw [h.x s hs, h.x t ht] at e1
  rw [h.y s hs, h.y t ht] at e2
  have e1 : sp.1 * ((s % nx : ℕ) : ℚ) = sp.1 * ((t % nx : ℕ) : ℚ) := by linarith
  have e2 : sp.2 * ((s / nx : ℕ) : ℚ) = sp.2 * ((t / nx : ℕ) : ℚ) := by linarith
  have e1 := mul_left_cancel₀ hx.ne' e1
  have e2 := mul_left_cancel₀ hy.ne' e2
  have e1' : s % nx = t % nx := by exact_mod_cast e1
  have e2' : s / nx = t / nx := by exact_mod_cast e2
  rw [(grid_decomp hs).2.2, (grid_decomp ht).2.2, e1', e2']

theorem valueAt_row {r : Record} {sp : ℚ × ℚ} {x0 y0 : ℚ} {nx ny : ℕ} {co : Label × Label} (h : Lattice r sp x0 y0 nx ny co)
    (hx : 0 < sp.1) (hy : 0 < sp.2) (l : Label) {t : ℕ} (ht : t < nx * ny) :
    valueAt r l (val r co.1 t) (val r co.2 t) co = val r l t := by
  unfold valueAt
  cases hf : (List.range (Flow.size r)).find?
      fun s => decide (val r co.1 s = val r co.1 t ∧ val r co.2 s = val r co.2 t) with
  | none =>
    rw [List.find?_eq_none] at hf
    have := hf t (by rw [List.mem_range, h.size]; exact ht)
    simp at this
  | some s =>
    have h1 := List.find?_some hf
    have h2 := List.mem_of_find?_eq_some hf
    simp only [decide_eq_true_eq] at h1
    rw [List.mem_range, h.size] at h2
    simp only [Option.elim]
    rw [h.unique hx hy h2 ht h1.1 h1.2]

theorem valueAt_none {r : Record} (l : Label) {x y : ℚ} {co : Label × Label}
    (h : ∀ t, t < Flow.size r → ¬ (val r co.1 t = x ∧ val r co.2 t = y)) : valueAt r l x y co = 0 := by
  unfold valueAt
  have : (List.range (Flow.size r)).find? (fun s => decide (val r co.1 s = x ∧ val r co.2 s = y)) = none := by
    rw [List.find?_eq_none]
    intro s hs
    rw [List.mem_range] at hs
    simpa using h s hs
  rw [this]; rfl

theorem Lattice.min_x {r : Record} {sp : ℚ × ℚ} {x0 y0 : ℚ} {nx ny : ℕ} {co : Label × Label} (h : Lattice r sp x0 y0 nx ny co)
    (hx : 0 < sp.1) : (do npMin (← field r co.1)) = .ok x0 := by
  obtain ⟨m, h1, ⟨t, ht, h2⟩, h3⟩ := npMin_field h.wf h.hasX (by rw [h.size]; exact Nat.mul_pos h.nxpos h.nypos)
  rw [h1]
  rw [h.size] at ht h3
  have h0 := (h.row h.nxpos h.nypos).1
  have ha := h3 (0 * nx + 0) (grid_lt h.nxpos h.nypos)
  rw [h0] at ha
  rw [h.x t ht] at h2
  have : 0 ≤ sp.1 * ((t % nx : ℕ) : ℚ) := by positivity
  congr 1
  push_cast at ha
  linarith

theorem Lattice.min_y {r : Record} {sp : ℚ × ℚ} {x0 y0 : ℚ} {nx ny : ℕ} {co : Label × Label} (h : Lattice r sp x0 y0 nx ny co)
    (hy : 0 < sp.2) : (do npMin (← field r co.2)) = .ok y0 := by
  obtain ⟨m, h1, ⟨t, ht, h2⟩, h3⟩ := npMin_field h.wf h.hasY (by rw [h.size]; exact Nat.mul_pos h.nxpos h.nypos)
  rw [h1]
  rw [h.size] at ht h3
  have h0 := (h.row h.nxpos h.nypos).2
  have ha := h3 (0 * nx + 0) (grid_lt h.nxpos h.nypos)
  rw [h0] at ha
  rw [h.y t ht] at h2
  have : 0 ≤ sp.2 * ((t / nx : ℕ) : ℚ) := by positivity
  congr 1
  push_cast at ha
  linarith

/-! ## `transfer_data` -/

theorem zipWith_lookup (F : List ℚ → List ℚ → List ℚ) : ∀ (g d : Record), names g = names d → ∀ l,
    col? (List.zipWith (fun gc dc => (gc.1, F gc.2 dc.2)) g d) l =
      (col? g l).bind fun a => (col? d l).map fun b => F a b := by
  intro g
  induction g with
  | nil => intro d hd l; simp [col?]
  | cons p g ih =>
    intro d hd l
    cases d with
    | nil => simp [names] at hd
    | cons q d =>
      obtain ⟨a, c⟩ := p
      obtain ⟨b, e⟩ := q
      simp only [names, List.map_cons, List.cons.injEq] at hd
      obtain ⟨rfl, hd⟩ := hd
      have := ih d hd l
      unfold col? at this ⊢
      simp only [List.zipWith_cons_cons, List.lookup_cons]
      cases hb : l == a with
      | true => simp
      | false => simpa using this

theorem zipWith_names (F : List ℚ → List ℚ → List ℚ) : ∀ (g d : Record), names g = names d →
    names (List.zipWith (fun gc dc => (gc.1, F gc.2 dc.2)) g d) = names g := by
  intro g
  induction g with
  | nil => intro d _; rfl
  | cons p g ih =>
    intro d hd
    cases d with
    | nil => simp [names] at hd
    | cons q d =>
      simp only [names, List.map_cons, List.cons.injEq] at hd
      have := ih d hd.2
      unfold names at this ⊢
      simp only [List.zipWith_cons_cons, List.map_cons, this]

theorem length_transferCol (NX NY i0 j0 nx ny : ℕ) (a b : List ℚ) :
    (transferCol NX NY i0 j0 nx ny a b).length = NX * NY := by simp [transferCol]

/-- Inside the window of the data. -/
def inWindow (NX i0 j0 nx ny t : ℕ) : Prop := i0 ≤ t % NX ∧ t % NX < i0 + nx ∧ j0 ≤ t / NX ∧ t / NX < j0 + ny

instance (NX i0 j0 nx ny t : ℕ) : Decidable (inWindow NX i0 j0 nx ny t) := by unfold inWindow; infer_instance

theorem transferData_spec (g : Grid) (data : Record) (sp : ℚ × ℚ) (co : Label × Label) (xg yg : ℚ) (i0 j0 nx ny : ℕ)
    (hx : 0 < sp.1) (hy : 0 < sp.2)
    (hg : Lattice g.data sp xg yg g.nx g.ny co)
    (hd : Lattice data sp (xg + sp.1 * (i0 : ℚ)) (yg + sp.2 * (j0 : ℚ)) nx ny co)
    (hi : i0 + nx ≤ g.nx) (hj : j0 + ny ≤ g.ny) (hn : names data = names g.data) :
    ∃ r, transferData g data (some (nx, ny)) sp co = .ok r ∧ names r = names g.data ∧ Wf r ∧
      Flow.size r = g.nx * g.ny ∧
      ∀ l, ∀ t, t < g.nx * g.ny → val r l t =
        if inWindow g.nx i0 j0 nx ny t then val data l ((t / g.nx - j0) * nx + (t % g.nx - i0)) else val g.data l t := by
  have hi0 : (max (pyRound (-(xg - (xg + sp.1 * (i0 : ℚ))) / sp.1)) 0).toNat = i0 := by
    rw [show -(xg - (xg + sp.1 * (i0 : ℚ))) / sp.1 = ((i0 : ℤ) : ℚ) by push_cast; field_simp; ring, pyRound_int]
    omega
  have hj0 : (max (pyRound (-(yg - (yg + sp.2 * (j0 : ℚ))) / sp.2)) 0).toNat = j0 := by
    rw [show -(yg - (yg + sp.2 * (j0 : ℚ))) / sp.2 = ((j0 : ℤ) : ℚ) by push_cast; field_simp; ring, pyRound_int]
    omega
  have m1 := hg.min_x hx
  have m2 := hg.min_y hy
  have m3 := hd.min_x hx
  have m4 := hd.min_y hy
  obtain ⟨c1, f1, -⟩ := field_ok hg.hasX
  obtain ⟨c2, f2, -⟩ := field_ok hg.hasY
  obtain ⟨c3, f3, -⟩ := field_ok hd.hasX
  obtain ⟨c4, f4, -⟩ := field_ok hd.hasY
  rw [f1] at m1
  rw [f2] at m2
  rw [f3] at m3
  rw [f4] at m4
  simp only [bind, Except.bind] at m1 m2 m3 m4
  have hlen : data.length = g.data.length := by
    have := congrArg List.length hn
    simpa [names] using this
  refine ⟨List.zipWith (fun gc dc => (gc.1, transferCol g.nx g.ny i0 j0 nx ny gc.2 dc.2)) g.data data, ?_, ?_, ?_, ?_, ?_⟩
  · unfold transferData
    simp only [bind, Except.bind, f1, f2, f3, f4, m1, m2, m3, m4, hi0, hj0]
    rw [if_neg (by rintro (h | h); exacts [hx.ne' h, hy.ne' h]), if_neg, if_pos]
    · simp only [Int.toNat_natCast]
    · simp only [Int.toNat_natCast]
      exact ⟨hlen, Or.inl (by omega), Or.inl (by omega)⟩
    · rw [hd.size]
      push_cast
      rintro (h | h | h)
      · omega
      · omega
      · exact h rfl
  · exact zipWith_names _ _ _ hn.symm
  · refine ⟨by rw [zipWith_names _ _ _ hn.symm]; exact hg.wf.1, ?_⟩
    have hall : ∀ c ∈ List.zipWith (fun gc dc => (gc.1, transferCol g.nx g.ny i0 j0 nx ny gc.2 dc.2)) g.data data,
        c.2.length = g.nx * g.ny := by
      intro c hc
      obtain ⟨i, hi, rfl⟩ := List.getElem_of_mem hc
      simp [transferCol]
    intro c hc
    rw [hall c hc]
    cases hz : List.zipWith (fun gc dc => (gc.1, transferCol g.nx g.ny i0 j0 nx ny gc.2 dc.2)) g.data data with
    | nil => rw [hz] at hc; simp at hc
    | cons e es => simp only [Flow.size]; rw [hall e (by rw [hz]; simp)]
  · cases hgd : g.data with
    | nil => have := hg.hasX; rw [hgd] at this; simp [names] at this
    | cons p ps =>
      cases hdd : data with
      | nil => rw [hgd, hdd] at hlen; simp at hlen
      | cons q qs => simp [Flow.size, transferCol]
  · intro l t ht
    by_cases hl : l ∈ names g.data
    · obtain ⟨a, -, ha⟩ := field_ok hl
      obtain ⟨b, -, hb⟩ := field_ok (r := data) (l := l) (by rw [hn]; exact hl)
      have hz : col? (List.zipWith (fun gc dc => (gc.1, transferCol g.nx g.ny i0 j0 nx ny gc.2 dc.2)) g.data data) l =
          some (transferCol g.nx g.ny i0 j0 nx ny a b) := by
        rw [zipWith_lookup _ _ _ hn.symm, ha, hb]; rfl
      rw [val_of_col hz, val_of_col ha, val_of_col hb]
      unfold transferCol
      rw [getD_map_range _ _ t ht]
      rfl
    · rw [val_eq_zero_of_not_mem (by rw [zipWith_names _ _ _ hn.symm]; exact hl), val_eq_zero_of_not_mem hl,
        val_eq_zero_of_not_mem (by rw [hn]; exact hl)]
      simp

/-- The projected record has the coordinates of the grid. -/
theorem transfer_lattice {g : Grid} {data r : Record} {sp : ℚ × ℚ} {co : Label × Label} {xg yg : ℚ} {i0 j0 nx ny : ℕ}
    (hg : Lattice g.data sp xg yg g.nx g.ny co)
    (hd : Lattice data sp (xg + sp.1 * (i0 : ℚ)) (yg + sp.2 * (j0 : ℚ)) nx ny co)
    (hr : names r = names g.data) (hw : Wf r) (hs : Flow.size r = g.nx * g.ny)
    (hv : ∀ l, ∀ t, t < g.nx * g.ny → val r l t =
        if inWindow g.nx i0 j0 nx ny t then val data l ((t / g.nx - j0) * nx + (t % g.nx - i0)) else val g.data l t) :
    Lattice r sp xg yg g.nx g.ny co := by
  refine ⟨hw, hg.nxpos, hg.nypos, hs, by rw [hr]; exact hg.hasX, by rw [hr]; exact hg.hasY, ?_, ?_⟩
  · intro t ht
    rw [hv _ t ht]
    split
    · rename_i hin
      unfold inWindow at hin
      rw [(hd.row (i := t % g.nx - i0) (j := t / g.nx - j0) (by omega) (by omega)).1]
      rw [Nat.cast_sub hin.1]; ring
    · exact hg.x t ht
  · intro t ht
    rw [hv _ t ht]
    split
    · rename_i hin
      unfold inWindow at hin
      rw [(hd.row (i := t % g.nx - i0) (j := t / g.nx - j0) (by omega) (by omega)).2]
      rw [Nat.cast_sub hin.2.2.1]; ring
    · exact hg.y t ht

/-- The projected value is the value of the data at that position. -/
theorem transfer_valueAt {g : Grid} {data : Record} {sp : ℚ × ℚ} {co : Label × Label} {xg yg : ℚ} {i0 j0 nx ny : ℕ}
    (hx : 0 < sp.1) (hy : 0 < sp.2)
    (hg : Lattice g.data sp xg yg g.nx g.ny co)
    (hd : Lattice data sp (xg + sp.1 * (i0 : ℚ)) (yg + sp.2 * (j0 : ℚ)) nx ny co) (l : Label) {t : ℕ}
    (ht : t < g.nx * g.ny) :
    valueAt data l (val g.data co.1 t) (val g.data co.2 t) co =
      if inWindow g.nx i0 j0 nx ny t then val data l ((t / g.nx - j0) * nx + (t % g.nx - i0)) else 0 := by
  split
  · rename_i hin
    unfold inWindow at hin
    have hi : t % g.nx - i0 < nx := by omega
    have hj : t / g.nx - j0 < ny := by omega
    rw [← valueAt_row hd hx hy l (grid_lt hi hj), (hd.row hi hj).1, (hd.row hi hj).2, hg.x t ht, hg.y t ht,
      Nat.cast_sub hin.1, Nat.cast_sub hin.2.2.1]
    congr 1 <;> ring
  · rename_i hout
    apply valueAt_none
    rintro s hs ⟨e1, e2⟩
    rw [hd.size] at hs
    obtain ⟨a, b, c⟩ := grid_decomp hs
    rw [hd.x s hs, hg.x t ht] at e1
    rw [hd.y s hs, hg.y t ht] at e2
    apply hout
    have e1 : sp.1 * ((i0 + s % nx : ℕ) : ℚ) = sp.1 * ((t % g.nx : ℕ) : ℚ) := by push_cast; linarith
    have e2 : sp.2 * ((j0 + s / nx : ℕ) : ℚ) = sp.2 * ((t / g.nx : ℕ) : ℚ) := by push_cast; linarith
    have e1 : i0 + s % nx = t % g.nx := by exact_mod_cast mul_left_cancel₀ hx.ne' e1
    have e2 : j0 + s / nx = t / g.nx := by exact_mod_cast mul_left_cancel₀ hy.ne' e2
    unfold inWindow
    rw [← e1, ← e2]
    exact ⟨Nat.le_add_right _ _, by omega, Nat.le_add_right _ _, by omega⟩

/-- Sum over the window. -/
theorem sum_transfer (NX NY i0 j0 nx ny : ℕ) (hi : i0 + nx ≤ NX) (hj : j0 + ny ≤ NY) (f : ℕ → ℚ) :
    (∑ t ∈ range (NX * NY), if inWindow NX i0 j0 nx ny t then f ((t / NX - j0) * nx + (t % NX - i0)) else 0) =
      ∑ s ∈ range (nx * ny), f s := by
  have h1 : (∑ t ∈ range (NX * NY), if inWindow NX i0 j0 nx ny t then f ((t / NX - j0) * nx + (t % NX - i0)) else 0) =
      ∑ t ∈ range (NX * NY), (fun i j => if j0 ≤ j ∧ j < j0 + ny then
        (if i0 ≤ i ∧ i < i0 + nx then f ((j - j0) * nx + (i - i0)) else 0) else 0) (t % NX) (t / NX) := by
    apply Finset.sum_congr rfl
    intro t _
    have hiff : inWindow NX i0 j0 nx ny t ↔ (i0 ≤ t % NX ∧ t % NX < i0 + nx) ∧ (j0 ≤ t / NX ∧ t / NX < j0 + ny) := by
      unfold inWindow; tauto
    beta_reduce
    by_cases h1 : i0 ≤ t % NX ∧ t % NX < i0 + nx <;> by_cases h2 : j0 ≤ t / NX ∧ t / NX < j0 + ny <;>
      simp only [hiff, h1, h2, and_self, if_true, if_false, and_true, true_and, false_and, and_false]
  rw [h1, sum_range_grid NX NY fun i j => if j0 ≤ j ∧ j < j0 + ny then
        (if i0 ≤ i ∧ i < i0 + nx then f ((j - j0) * nx + (i - i0)) else 0) else 0]
  have h2 : ∀ j ∈ range NY, (∑ i ∈ range NX, if j0 ≤ j ∧ j < j0 + ny then
        (if i0 ≤ i ∧ i < i0 + nx then f ((j - j0) * nx + (i - i0)) else 0) else 0) =
      if j0 ≤ j ∧ j < j0 + ny then (fun j' => ∑ i ∈ range nx, f (j' * nx + i)) (j - j0) else 0 := by
    intro j _
    split
    · exact sum_window NX i0 nx hi fun i => f ((j - j0) * nx + i)
    · simp
  rw [Finset.sum_congr rfl h2, sum_window NY j0 ny hj fun j' => ∑ i ∈ range nx, f (j' * nx + i), ← sum_range_grid nx ny fun i j => f (j * nx + i)]
  apply Finset.sum_congr rfl
  intro t ht
  rw [mem_range] at ht
  rw [← (grid_decomp ht).2.2]

/-! ## `average_data` -/

theorem assign_self (n : ℕ) (c : List ℚ) (h : c.length = n) : assign n c = .ok c := by simp [assign, h]

theorem colSum_getD (n : ℕ) (cols : List (List ℚ)) (t : ℕ) (h : t < n) :
    (colSum n cols).getD t 0 = (cols.map fun c => c.getD t 0).sum := by
  unfold colSum; exact getD_map_range _ _ t h

theorem arithmeticMean_ok (l : Label) (n : ℕ) (ds : List Record) (h : ∀ d ∈ ds, Wf d ∧ l ∈ names d ∧ Flow.size d = n) :
    ∃ c, arithmeticMean l n ds = .ok c ∧ c.length = n ∧
      ∀ t, t < n → c.getD t 0 = (ds.map fun d => val d l t).sum / ds.length := by
  have hm : ds.mapM (fun d => do assign n (← field d l)) = .ok (ds.map fun d => (col? d l).getD []) := by
    apply mapM_ok'
    intro d hd
    obtain ⟨h1, h2, h3⟩ := h d hd
    obtain ⟨c, hf, hc⟩ := field_ok h2
    rw [hf, hc]
    simp only [bind, Except.bind, Option.getD_some]
    exact assign_self _ _ (by rw [col?_length h1 hc, h3])
  refine ⟨(colSum n (ds.map fun d => (col? d l).getD [])).map fun s => s / (ds.length : ℚ), ?_, ?_, ?_⟩
  · unfold arithmeticMean
    rw [hm]
    rfl
  · simp [colSum]
  · intro t ht
    have : ((colSum n (ds.map fun d => (col? d l).getD [])).map fun s => s / (ds.length : ℚ)).getD t 0 =
        (colSum n (ds.map fun d => (col? d l).getD [])).getD t 0 / ds.length := by
      rw [List.getD_eq_getElem?_getD, List.getD_eq_getElem?_getD, List.getElem?_map]
      cases (colSum n (ds.map fun d => (col? d l).getD []))[t]? <;> simp
    rw [this, colSum_getD _ _ t ht, List.map_map]
    rfl

theorem getD_zipWith (f : ℚ → ℚ → ℚ) (a b : List ℚ) (t : ℕ) (ha : t < a.length) (hb : t < b.length) :
    (List.zipWith f a b).getD t 0 = f (a.getD t 0) (b.getD t 0) := by
  simp [List.getD_eq_getElem?_getD, ha, hb]

theorem weightedMean_ok (huge : ℚ) (l w : Label) (avg : Record) (n : ℕ) (ds : List Record)
    (ha : Wf avg ∧ l ∈ names avg ∧ w ∈ names avg ∧ Flow.size avg = n)
    (h : ∀ d ∈ ds, Wf d ∧ l ∈ names d ∧ w ∈ names d ∧ Flow.size d = n) :
    ∃ c, weightedMean huge l w avg n ds = .ok c ∧ c.length = n ∧
      ∀ t, t < n → c.getD t 0 = divNan huge (ds.map fun d => val d l t * val d w t).sum (ds.length * val avg w t) := by
  have hm : (do
      let _ ← field avg l
      ds.mapM fun d => do assign n (List.zipWith (· * ·) (← field d l) (← field d w))) =
      .ok (ds.map fun d => List.zipWith (· * ·) ((col? d l).getD []) ((col? d w).getD [])) := by
    obtain ⟨c0, hf0, -⟩ := field_ok ha.2.1
    rw [hf0]
    simp only [bind, Except.bind]
    apply mapM_ok'
    intro d hd
    obtain ⟨h1, h2, h3, h4⟩ := h d hd
    obtain ⟨c, hf, hc⟩ := field_ok h2
    obtain ⟨e, he, hce⟩ := field_ok h3
    rw [hf, hc, he, hce]
    simp only [Option.getD_some]
    exact assign_self _ _ (by simp [col?_length h1 hc, col?_length h1 hce, h4])
  obtain ⟨cw, hfw, hcw⟩ := field_ok ha.2.2.1
  have hlw := col?_length ha.1 hcw
  refine ⟨List.zipWith (fun s a => divNan huge s (ds.length * a))
    (colSum n (ds.map fun d => List.zipWith (· * ·) ((col? d l).getD []) ((col? d w).getD []))) cw, ?_, ?_, ?_⟩
  · unfold weightedMean
    rw [hm]
    simp only [bind, Except.bind, hfw]
  · simp [colSum, hlw, ha.2.2.2]
  · intro t ht
    rw [getD_zipWith _ _ _ _ (by simp [colSum, ht]) (by rw [hlw, ha.2.2.2]; exact ht), colSum_getD _ _ t ht,
      List.map_map, val_of_col hcw]
    congr 1
    congr 1
    apply List.map_congr_left
    intro d hd
    obtain ⟨h1, h2, h3, h4⟩ := h d hd
    obtain ⟨c, hf, hc⟩ := field_ok h2
    obtain ⟨e, he, hce⟩ := field_ok h3
    simp only [Function.comp, hc, hce, Option.getD_some, val_of_col hc, val_of_col hce]
    rw [getD_zipWith _ _ _ _ (by rw [col?_length h1 hc, h4]; exact ht) (by rw [col?_length h1 hce, h4]; exact ht)]

theorem fold_weights (huge : ℚ) (n : ℕ) (ds : List Record) (ls : List Label) (hu : Uniform ds ls n) :
    ∀ (ws : List (Label × Label)) (avg : Record), Wf avg → names avg = ls → Flow.size avg = n →
      (ws.map Prod.fst).Nodup → (∀ p ∈ ws, p.1 ∈ ls ∧ p.2 ∈ ls ∧ ∀ q ∈ ws, q.1 ≠ p.2) →
      ∃ r, ws.foldlM (fun avg lw => do
          Except.ok (ε := Err) (setCol avg lw.1 (← weightedMean huge lw.1 lw.2 avg n ds))) avg = .ok r ∧
        Wf r ∧ names r = ls ∧ Flow.size r = n ∧
        (∀ l, (∀ p ∈ ws, p.1 ≠ l) → ∀ t, val r l t = val avg l t) ∧
        ∀ p ∈ ws, ∀ t, t < n → val r p.1 t =
          divNan huge (ds.map fun d => val d p.1 t * val d p.2 t).sum (ds.length * val avg p.2 t) := by
  intro ws
  induction ws with
  | nil => intro avg hw hn hs _ _; exact ⟨avg, rfl, hw, hn, hs, fun _ _ _ => rfl, by simp⟩
  | cons p ws ih =>
    intro avg hw hn hs hnd hp
    obtain ⟨hp1, hp2, hp3⟩ := hp p (by simp)
    obtain ⟨c, hc, hcl, hcv⟩ := weightedMean_ok huge p.1 p.2 avg n ds ⟨hw, by rw [hn]; exact hp1, by rw [hn]; exact hp2, hs⟩
      (by intro d hd; obtain ⟨a, b, e⟩ := hu d hd; exact ⟨a, by rw [b]; exact hp1, by rw [b]; exact hp2, e⟩)
    have hw' := wf_setCol hw p.1 c (by rw [hcl, hs])
    have hsz : Flow.size (setCol avg p.1 c) = n := by
      cases ha : avg with
      | nil => rw [ha] at hn; simp only [names, List.map_nil] at hn; rw [← hn] at hp1; simp at hp1
      | cons a as =>
        rw [ha] at hs
        simp only [setCol, List.map_cons, Flow.size]
        split
        · exact hcl
        · exact hs
    have hcol : ∀ l t, val (setCol avg p.1 c) l t = if l = p.1 then c.getD t 0 else val avg l t := by
      intro l t
      unfold val
      rw [col?_setCol _ _ _ _ (by rw [hn]; exact hp1)]
      split <;> rfl
    obtain ⟨r, h1, h2, h3, h4, h5, h6⟩ := ih (setCol avg p.1 c) hw' (by rw [names_setCol]; exact hn) hsz
      (by simp only [List.map_cons, List.nodup_cons] at hnd; exact hnd.2)
      (by intro q hq; obtain ⟨a, b, e⟩ := hp q (by simp [hq]); exact ⟨a, b, fun q' hq' => e q' (by simp [hq'])⟩)
    refine ⟨r, ?_, h2, h3, h4, ?_, ?_⟩
    · rw [List.foldlM_cons, hc]
      exact h1
    · intro l hl t
      rw [h5 l (fun q hq => hl q (by simp [hq])), hcol, if_neg]
      exact fun e => hl p (by simp) e.symm
    · intro q hq t ht
      simp only [List.map_cons, List.nodup_cons] at hnd
      rcases List.mem_cons.mp hq with rfl | hq
      · rw [h5 q.1 (fun q' hq' e => hnd.1 (List.mem_map.mpr ⟨q', hq', e⟩)), hcol, if_pos rfl, hcv t ht]
      · rw [h6 q hq t ht, hcol, if_neg]
        exact fun e => (hp q (by simp [hq])).2.2 p (by simp) e.symm

theorem averageData_spec (huge : ℚ) (ds : List Record) (ws : List (Label × Label)) (co : Label × Label)
    (ls : List Label) (n : ℕ) (hne : ds ≠ []) (hu : Uniform ds ls n) (hnd : (ws.map Prod.fst).Nodup)
    (hws : ∀ p ∈ ws, p.1 ∈ ls ∧ p.2 ∈ ls ∧ p.2 ≠ co.1 ∧ p.2 ≠ co.2 ∧ ∀ q ∈ ws, q.1 ≠ p.2) :
    ∃ r, averageData huge ds ws co = .ok r ∧ Wf r ∧ names r = ls ∧ Flow.size r = n ∧
      (∀ d, ds.head? = some d → ∀ l, (l = co.1 ∨ l = co.2) → (∀ p ∈ ws, p.1 ≠ l) → ∀ t, val r l t = val d l t) ∧
      (∀ l ∈ ls, l ≠ co.1 → l ≠ co.2 → (∀ p ∈ ws, p.1 ≠ l) → ∀ t, t < n →
        val r l t = (ds.map fun d => val d l t).sum / ds.length) ∧
      ∀ p ∈ ws, ∀ t, t < n → val r p.1 t =
          divNan huge (ds.map fun d => val d p.1 t * val d p.2 t).sum (ds.map fun d => val d p.2 t).sum := by
  cases ds with
  | nil => exact absurd rfl hne
  | cons first rest =>
    obtain ⟨hfw, hfn, hfs⟩ := hu first (by simp)
    -- the arithmetic columns
    let S : Label → Prop := fun l => l = co.1 ∨ l = co.2 ∨ l ∈ ws.map Prod.fst
    have hch : ∀ l ∈ ls, ∃ c, arithmeticMean l n (first :: rest) = .ok c ∧ c.length = n ∧
      ∀ t, t < n → c.getD t 0 = ((first :: rest).map fun d => val d l t).sum / (first :: rest).length := by
      intro l hl
      apply arithmeticMean_ok
      intro d hd
      obtain ⟨a, b, c⟩ := hu d hd
      exact ⟨a, by rw [b]; exact hl, c⟩
    choose! A hA1 hA2 hA3 using hch
    let G : Label × List ℚ → Label × List ℚ := fun lc =>
      if lc.1 = co.1 ∨ lc.1 = co.2 ∨ lc.1 ∈ ws.map Prod.fst then lc else (lc.1, A lc.1)
    have hm : first.mapM (fun lc => if lc.1 = co.1 ∨ lc.1 = co.2 ∨ lc.1 ∈ ws.map Prod.fst then Except.ok (ε := Err) lc
      else do .ok (lc.1, ← arithmeticMean lc.1 (Flow.size first) (first :: rest))) = .ok (first.map G) := by
      apply mapM_ok'
      intro lc hlc
      simp only [G]
      split
      · rfl
      · rw [hfs, hA1 lc.1 (by rw [← hfn]; exact List.mem_map_of_mem hlc)]; rfl
    have hGn : names (first.map G) = ls := by
      rw [← hfn]
      unfold names
      rw [List.map_map]
      apply List.map_congr_left
      intro lc _
      simp only [Function.comp, G]
      split <;> rfl
    have hGl : ∀ c ∈ first.map G, c.2.length = n := by
      intro c hc
      obtain ⟨lc, hlc, rfl⟩ := List.mem_map.mp hc
      simp only [G]
      split
      · rw [hfw.2 lc hlc, hfs]
      · exact hA2 lc.1 (by rw [← hfn]; exact List.mem_map_of_mem hlc)
    have hGs : first ≠ [] → Flow.size (first.map G) = n := by
      intro h
      cases hf : first with
      | nil => exact absurd hf h
      | cons a as => rw [hf] at hGl; exact hGl _ (by simp)
    have hGs : Flow.size (first.map G) = n := by
      by_cases h : first = []
      · rw [h] at hfs ⊢; exact hfs
      · exact hGs h
    have hGw : Wf (first.map G) := ⟨by rw [hGn, ← hfn]; exact hfw.1, fun c hc => by rw [hGl c hc, hGs]⟩
    have hGv : ∀ l ∈ ls, ∀ t, val (first.map G) l t = if S l then val first l t else (A l).getD t 0 := by
      intro l hl t
      obtain ⟨c, -, hc⟩ := field_ok (r := first) (l := l) (by rw [hfn]; exact hl)
      have hmem := lookup_mem hc
      have hm2 : (l, if S l then c else A l) ∈ first.map G := by
        refine List.mem_map.mpr ⟨_, hmem, ?_⟩
        simp only [G, S]
        split <;> rfl
      have := lookup_of_mem hGw.1 hm2
      rw [val_of_col this, val_of_col hc]
      split <;> rfl
    obtain ⟨r, h1, h2, h3, h4, h5, h6⟩ := fold_weights huge n (first :: rest) ls hu ws (first.map G) hGw hGn hGs hnd
      (by intro p hp; obtain ⟨a, b, -, -, c⟩ := hws p hp; exact ⟨a, b, c⟩)
    refine ⟨r, ?_, h2, h3, h4, ?_, ?_, ?_⟩
    · unfold averageData
      simp only [bind, Except.bind] at hm ⊢
      rw [hm]
      simp only [hfs]
      exact h1
    · intro d hd l hl hp t
      simp only [List.head?_cons, Option.some.injEq] at hd
      subst hd
      rw [h5 l hp]
      by_cases hll : l ∈ ls
      · rw [hGv l hll, if_pos (by rcases hl with h | h <;> simp [S, h])]
      · rw [val_eq_zero_of_not_mem (by rw [hGn]; exact hll), val_eq_zero_of_not_mem (by rw [hfn]; exact hll)]
    · intro l hl n1 n2 hp t ht
      rw [h5 l hp, hGv l hl, if_neg, hA3 l hl t ht]
      rintro (h | h | h)
      · exact n1 h
      · exact n2 h
      · obtain ⟨p, hp', e⟩ := List.mem_map.mp h; exact hp p hp' e
    · intro p hp t ht
      obtain ⟨a, b, c1, c2, c3⟩ := hws p hp
      rw [h6 p hp t ht, hGv p.2 b, if_neg, hA3 p.2 b t ht]
      · congr 1
        have : ((first :: rest).length : ℚ) ≠ 0 := by simp; positivity
        field_simp
      · rintro (h | h | h)
        · exact c1 h
        · exact c2 h
        · obtain ⟨q, hq, e⟩ := List.mem_map.mp h; exact c3 q hq e

end Strata.Average
