import Verif.Props.SpreadingFiles
import Verif.Props.SpreadingEdges
import Verif.Props.ReadFiles
import Verif.Spec.SpreadingFiles
import Mathlib.Data.List.Sort
/-!
# The contact line of a map read from a file: C122
-/
namespace Strata.SpreadingFiles
variable {γ : Type}

open Strata Strata.Flow Strata.Files Strata.Average Strata.Interface Strata.Spreading Strata.SpreadingText Strata.Spec Strata.Driver

theorem OnGrid.wf {m : Map} {nx ny : ℕ} {dx dy x1 y1 : ℚ} {or : ℚ × ℚ} (h : OnGrid m nx ny dx dy x1 y1 or) : m.1 ≠ [] ∧ Wf m.1 ∧ Flow.size m.1 = nx * ny := by
  have hne : m.1 ≠ [] := by intro h0; have := h.labels; rw [h0] at this; cases this
  have hsize : Flow.size m.1 = nx * ny := by
    obtain ⟨c, r, hr⟩ := List.exists_cons_of_ne_nil hne
    have := h.sizes c (by rw [hr]; simp)
    unfold Flow.size
    rw [hr]
    exact this
  exact ⟨hne, ⟨by rw [h.labels]; decide, fun c hc => by rw [hsize]; exact h.sizes c hc⟩, hsize⟩

/-- The map as a `FlowData` object. -/
theorem flowOf_grid {m : Map} {nx ny : ℕ} {dx dy x1 y1 : ℚ} {or : ℚ × ℚ} (h : OnGrid m nx ny dx dy x1 y1 or) :
    flowOf m = .ok ⟨m.1, ⟨some (nx, ny), some or, some (dx, dy), some (nx * ny : ℕ)⟩⟩ := by
  obtain ⟨hne, hw, -⟩ := OnGrid.wf h
  have hd : setData [.dict m.1] = .ok m.1 := setData_of_wf _ _ (by simp [collate, bind, Except.bind]) hne hw
  have h1 : pyInt (nx : ℚ) = nx := by exact_mod_cast pyInt_intCast (nx : ℤ)
  have h2 : pyInt (ny : ℚ) = ny := by exact_mod_cast pyInt_intCast (ny : ℤ)
  have h3 : pyInt ((nx * ny : ℕ) : ℚ) = (nx * ny : ℕ) := by exact_mod_cast pyInt_intCast ((nx * ny : ℕ) : ℤ)
  unfold flowOf
  rw [h.info]
  simp only
  unfold mk
  rw [hd, Gmx.ok_bind]
  have hi : setInfo [("shape", .tuple [some (nx : ℚ), some (ny : ℚ)]), ("spacing", .tuple [some dx, some dy]), ("origin", pairVal (some or)), ("num_bins", .num ((nx * ny : ℕ) : ℚ))] =
      .ok ⟨some ((nx : ℤ), (ny : ℤ)), some or, some (dx, dy), some ((nx * ny : ℕ) : ℤ)⟩ := by
    simp [setInfo, pairVal, List.lookup_cons, setPair, setNum, bind, Except.bind, h1, h2]
    exact_mod_cast h3
  rw [hi]
  rfl

/-- The rows of the map as cells. -/
theorem cells_grid {m : Map} {nx ny : ℕ} {dx dy x1 y1 : ℚ} {or : ℚ × ℚ} (h : OnGrid m nx ny dx dy x1 y1 or) :
    ∃ s, cells m.1 "M" = .ok s ∧ s.length = nx * ny ∧ ∀ k j, k < nx → j < ny →
      (row s (k * ny + j)).x = x1 + dx * k ∧ (row s (k * ny + j)).y = y1 + dy * j ∧ (row s (k * ny + j)).v = val m.1 "M" (k * ny + j) := by
  obtain ⟨-, hw, hsize⟩ := OnGrid.wf h
  obtain ⟨xs, e1, c1⟩ := Average.field_ok (r := m.1) (l := "X") (by rw [h.labels]; simp)
  obtain ⟨ys, e2, c2⟩ := Average.field_ok (r := m.1) (l := "Y") (by rw [h.labels]; simp)
  obtain ⟨vs, e3, c3⟩ := Average.field_ok (r := m.1) (l := "M") (by rw [h.labels]; simp)
  refine ⟨_, by unfold cells; rw [e1, Gmx.ok_bind, e2, Gmx.ok_bind, e3, Gmx.ok_bind], by rw [List.length_map, List.length_range, hsize], fun k j hk hj => ?_⟩
  have hlt : k * ny + j < nx * ny := by rw [Nat.mul_comm nx]; exact grid_lt hj hk
  have hrow : ∀ f : ℕ → Cell, row ((List.range (Flow.size m.1)).map f) (k * ny + j) = f (k * ny + j) := by
    intro f
    unfold row
    rw [List.getD_eq_getElem?_getD, List.getElem?_map, List.getElem?_range (by omega)]
    rfl
  rw [hrow]
  obtain ⟨p1, p2⟩ := h.pos _ hlt
  rw [grid_div hj] at p1
  rw [grid_mod hj] at p2
  simp only
  rw [← val_of_col c1, ← val_of_col c2, ← val_of_col c3, p1, p2]
  exact ⟨rfl, rfl, rfl⟩

/-- A system of cells on a grid, column by column. -/
structure GridCells (s : System) (M : ℕ → ℕ → ℚ) (nx ny : ℕ) (dx dy x1 y1 : ℚ) : Prop where
  length : s.length = nx * ny
  cell : ∀ k j, k < nx → j < ny → (row s (k * ny + j)).x = x1 + dx * k ∧ (row s (k * ny + j)).y = y1 + dy * j ∧ (row s (k * ny + j)).v = M k j

theorem GridCells.split {s : System} {M : ℕ → ℕ → ℚ} {nx ny : ℕ} {dx dy x1 y1 : ℚ} (h : GridCells s M nx ny dx dy x1 y1) {t : ℕ} (ht : t < s.length) :
    ∃ k j, k < nx ∧ j < ny ∧ t = k * ny + j := by
  rw [h.length, Nat.mul_comm] at ht
  obtain ⟨h1, h2, h3⟩ := grid_decomp ht
  exact ⟨t / ny, t % ny, h2, h1, h3⟩

theorem GridCells.lt {s : System} {M : ℕ → ℕ → ℚ} {nx ny : ℕ} {dx dy x1 y1 : ℚ} (h : GridCells s M nx ny dx dy x1 y1) {k j : ℕ} (hk : k < nx) (hj : j < ny) :
    k * ny + j < s.length := by
  rw [h.length, Nat.mul_comm nx]; exact grid_lt hj hk

/-- Liquid bins. -/
theorem GridCells.liquid {s : System} {M : ℕ → ℕ → ℚ} {nx ny : ℕ} {dx dy x1 y1 : ℚ} (h : GridCells s M nx ny dx dy x1 y1) (r c : ℚ) (bins : ℤ) {k j : ℕ} (hk : k < nx) (hj : j < ny) :
    PeriodicLiquid s ((nx : ℤ) * dx) r c bins (k * ny + j) ↔ WetBin M nx ny dx dy r c bins k j := by
  obtain ⟨c1, c2, c3⟩ := h.cell k j hk hj
  have hn : (0 : ℤ) < nx := by omega
  have hcard : Set.ncard {p : ℕ × ℤ | p.1 < s.length ∧ p ≠ (k * ny + j, 0) ∧ c ≤ (row s p.1).v ∧ Near r (row s (k * ny + j)) (Strata.Interface.image ((nx : ℤ) * dx) p.2 (row s p.1))} =
      Set.ncard {p : ℤ × ℕ | p.2 < ny ∧ p ≠ ((k : ℤ), j) ∧ c ≤ M (p.1 % nx).toNat p.2 ∧ (dx * ((p.1 : ℚ) - k)) ^ 2 + (dy * ((p.2 : ℚ) - j)) ^ 2 ≤ r ^ 2} := by
    have hcol : ∀ a : ℕ, a < nx → ∀ b : ℤ, (((a : ℤ) + b * nx) % nx).toNat = a := by
      intro a ha b
      rw [Int.add_mul_emod_self_right, Int.emod_eq_of_lt (by omega) (by omega)]
      simp
    have key : ∀ a i : ℕ, ∀ b : ℤ, a < nx → i < ny → (((a * ny + i, b) : ℕ × ℤ) ∈ {p : ℕ × ℤ | p.1 < s.length ∧ p ≠ (k * ny + j, 0) ∧ c ≤ (row s p.1).v ∧
        Near r (row s (k * ny + j)) (Strata.Interface.image ((nx : ℤ) * dx) p.2 (row s p.1))} ↔
        (((a : ℤ) + b * nx, i) : ℤ × ℕ) ∈ {p : ℤ × ℕ | p.2 < ny ∧ p ≠ ((k : ℤ), j) ∧ c ≤ M (p.1 % nx).toNat p.2 ∧
          (dx * ((p.1 : ℚ) - k)) ^ 2 + (dy * ((p.2 : ℚ) - j)) ^ 2 ≤ r ^ 2}) := by
      intro a i b ha hi
      obtain ⟨d1, d2, d3⟩ := h.cell a i ha hi
      have hlt := h.lt ha hi
      simp only [Set.mem_setOf_eq, ne_eq, Prod.mk.injEq, Near, Strata.Interface.image, c1, c2, d1, d2, d3, hcol a ha b]
      have e1 : (a * ny + i = k * ny + j ∧ b = 0) ↔ ((a : ℤ) + b * nx = k ∧ i = j) := by
        constructor
        · rintro ⟨e, rfl⟩
          have hd := congrArg (· / ny) e
          have hm := congrArg (· % ny) e
          simp only [grid_div hi, grid_div hj, grid_mod hi, grid_mod hj] at hd hm
          simp [hd, hm]
        · rintro ⟨e, rfl⟩
          have ha' := hcol a ha b
          rw [e] at ha'
          have : k = a := by
            rw [Int.emod_eq_of_lt (by omega) (by omega)] at ha'
            simpa using ha'
          subst this
          have hb : b * nx = 0 := by omega
          rcases mul_eq_zero.mp hb with h0 | h0
          · exact ⟨rfl, h0⟩
          · omega
      have e2 : (x1 + dx * (a : ℚ) + (b : ℚ) * ((nx : ℤ) * dx) - (x1 + dx * k)) ^ 2 + (y1 + dy * (i : ℚ) - (y1 + dy * j)) ^ 2 =
          (dx * ((((a : ℤ) + b * nx : ℤ) : ℚ) - k)) ^ 2 + (dy * ((i : ℚ) - j)) ^ 2 := by
        push_cast
        ring
      rw [e2, e1]
      simp only [hlt, hi, true_and]
    refine Set.ncard_congr (fun p _ => (((p.1 / ny : ℕ) : ℤ) + p.2 * nx, p.1 % ny)) ?_ ?_ ?_
    · rintro ⟨t, b⟩ hp
      obtain ⟨a, i, ha, hi, rfl⟩ := h.split hp.1
      rw [grid_div hi, grid_mod hi]
      exact (key a i b ha hi).mp hp
    · rintro ⟨t, b⟩ ⟨t', b'⟩ hp hp' he
      obtain ⟨a, i, ha, hi, rfl⟩ := h.split hp.1
      obtain ⟨a', i', ha', hi', rfl⟩ := h.split hp'.1
      simp only [grid_div hi, grid_mod hi, grid_div hi', grid_mod hi', Prod.mk.injEq] at he
      obtain ⟨he1, rfl⟩ := he
      have ea := hcol a ha b
      rw [he1, hcol a' ha' b'] at ea
      subst ea
      have : b * nx = b' * nx := by omega
      have := mul_right_cancel₀ (by omega : (nx : ℤ) ≠ 0) this
      rw [this]
    · rintro ⟨a, i⟩ hp
      have hi : i < ny := hp.1
      have ha0 := Int.emod_nonneg a (by omega : (nx : ℤ) ≠ 0)
      have ha1 := Int.emod_lt_of_pos a hn
      have hsum : (((a % nx).toNat : ℕ) : ℤ) + (a / nx) * nx = a := by
        rw [Int.toNat_of_nonneg ha0, Int.mul_comm]
        exact Int.emod_add_mul_ediv a nx
      refine ⟨((a % nx).toNat * ny + i, a / nx), (key _ i _ (by omega) hi).mpr (by rw [hsum]; exact hp), ?_⟩
      rw [grid_div hi, grid_mod hi, hsum]
  unfold PeriodicLiquid WetBin
  rw [hcard, c3]
  have := h.lt hk hj
  tauto

/-- The rows of a layer, from left to right. -/
theorem GridCells.layer {s : System} {M : ℕ → ℕ → ℚ} {nx ny : ℕ} {dx dy x1 y1 : ℚ} (h : GridCells s M nx ny dx dy x1 y1) (hdy : 0 < dy) {j : ℕ} (hj : j < ny) :
    layerRows s (y1 + dy * j) = (List.range nx).map fun k : ℕ => k * ny + j := by
  refine List.Pairwise.eq_of_mem_iff (r := (· < ·)) (List.pairwise_lt_range.filter _) ?_ ?_
  · rw [List.pairwise_map]
    refine List.pairwise_lt_range.imp ?_
    intro a b hab
    have : a * ny < b * ny := Nat.mul_lt_mul_of_pos_right hab (by omega)
    omega
  · intro t
    unfold layerRows
    rw [List.mem_filter, List.mem_range, decide_eq_true_iff, List.mem_map]
    constructor
    · rintro ⟨ht, hy⟩
      obtain ⟨k, i, hk, hi, rfl⟩ := h.split ht
      rw [(h.cell k i hk hi).2.1] at hy
      have hij : (i : ℚ) = j := mul_left_cancel₀ hdy.ne' (by linarith)
      have hij : i = j := by exact_mod_cast hij
      exact ⟨k, List.mem_range.mpr hk, by rw [hij]⟩
    · rintro ⟨k, hk, rfl⟩
      exact ⟨h.lt (List.mem_range.mp hk) hj, (h.cell k j (List.mem_range.mp hk) hj).2.1⟩

theorem GridCells.layer_none {s : System} {M : ℕ → ℕ → ℚ} {nx ny : ℕ} {dx dy x1 y1 : ℚ} (h : GridCells s M nx ny dx dy x1 y1) {y : ℚ} (hy : ¬ ∃ j : ℕ, j < ny ∧ y = y1 + dy * j) :
    layerRows s y = [] := by
  unfold layerRows
  rw [List.filter_eq_nil_iff]
  intro t ht
  obtain ⟨k, i, hk, hi, rfl⟩ := h.split (List.mem_range.mp ht)
  rw [(h.cell k i hk hi).2.1, decide_eq_true_iff]
  rintro rfl
  exact hy ⟨i, hi, rfl⟩

/-- Longest runs in a layer. -/
theorem GridCells.run {s : System} {M : ℕ → ℕ → ℚ} {nx ny : ℕ} {dx dy x1 y1 : ℚ} (h : GridCells s M nx ny dx dy x1 y1) (hdy : 0 < dy) {j : ℕ} (hj : j < ny) (r c : ℚ) (bins : ℤ)
    (start len : ℕ) (hr : LongestRun (PeriodicLiquid s ((nx : ℤ) * dx) r c bins) (layerRows s (y1 + dy * j)) start len) :
    LongestStretch (fun k => WetBin M nx ny dx dy r c bins k j) nx start len := by
  rw [h.layer hdy hj] at hr
  unfold LongestRun CyclicRun at hr
  simp only [List.length_map, List.length_range, List.getElem?_map] at hr
  obtain ⟨r1, r2, r3, r4, r5⟩ := hr
  have hpos : 0 < nx := by omega
  have hel : ∀ a : ℕ, ((List.range nx)[a % nx]?.map fun k : ℕ => k * ny + j) = some (a % nx * ny + j) := by
    intro a
    rw [List.getElem?_range (Nat.mod_lt _ hpos)]
    rfl
  refine ⟨r1, r2, r3, fun t ht => ?_, fun start' len' hl hw => r5 start' len' hl fun t ht => ⟨_, hel _, ?_⟩⟩
  · obtain ⟨a, ha, hP⟩ := r4 t ht
    rw [hel] at ha
    obtain rfl := Option.some.inj ha
    exact (h.liquid r c bins (Nat.mod_lt _ hpos) hj).mp hP
  · exact (h.liquid r c bins (Nat.mod_lt _ hpos) hj).mpr (hw t ht)

theorem GridCells.values {s : System} {M : ℕ → ℕ → ℚ} {nx ny : ℕ} {dx dy x1 y1 : ℚ} (h : GridCells s M nx ny dx dy x1 y1) (v : ℚ) :
    v ∈ s.map (·.v) ↔ ∃ k j, k < nx ∧ j < ny ∧ M k j = v := by
  rw [List.mem_map]
  constructor
  · rintro ⟨d, hd, rfl⟩
    obtain ⟨t, ht, rfl⟩ := List.getElem_of_mem hd
    obtain ⟨k, j, hk, hj, rfl⟩ := h.split ht
    refine ⟨k, j, hk, hj, ?_⟩
    rw [← (h.cell k j hk hj).2.2]
    unfold row
    rw [List.getD_eq_getElem?_getD, List.getElem?_eq_getElem ht, Option.getD_some]
  · rintro ⟨k, j, hk, hj, rfl⟩
    have ht := h.lt hk hj
    refine ⟨s[k * ny + j], List.getElem_mem ht, ?_⟩
    rw [← (h.cell k j hk hj).2.2]
    unfold row
    rw [List.getD_eq_getElem?_getD, List.getElem?_eq_getElem ht, Option.getD_some]

theorem GridCells.cutoff {s : System} {M : ℕ → ℕ → ℚ} {nx ny : ℕ} {dx dy x1 y1 : ℚ} (h : GridCells s M nx ny dx dy x1 y1) {given : Option ℚ} {c : ℚ} (hc : UsedCutoff M nx ny given c) :
    getCutoff given s = .ok c := by
  rcases hc with rfl | ⟨rfl, lo, hi, hne, rfl, h1, h2, h3⟩
  · rfl
  · have e1 : npMin (s.map (·.v)) = .ok lo := (npMin_ok_iff _ _).mpr ⟨(h.values lo).mpr h1, fun x hx => by
      obtain ⟨k, j, hk, hj, rfl⟩ := (h.values x).mp hx
      exact (h3 k j hk hj).1⟩
    have e2 : npMax (s.map (·.v)) = .ok hi := (npMax_ok_iff _ _).mpr ⟨(h.values hi).mpr h2, fun x hx => by
      obtain ⟨k, j, hk, hj, rfl⟩ := (h.values x).mp hx
      exact (h3 k j hk hj).2⟩
    unfold getCutoff
    simp only
    rw [e1, Gmx.ok_bind, e2, Gmx.ok_bind, if_pos hne]
    congr 1
    ring

/-- The layer chosen by the floor. -/
theorem GridCells.floor {s : System} {M : ℕ → ℕ → ℚ} {nx ny : ℕ} {dx dy x1 y1 : ℚ} (h : GridCells s M nx ny dx dy x1 y1) (hnx : 0 < nx) (hny : 0 < ny) (floor : Option ℚ) :
    (floor = none ∧ floorHeight floor (s.map (·.y)) = .ok none) ∨
    ∃ v j, floor = some v ∧ j < ny ∧ floorHeight floor (s.map (·.y)) = .ok (some (y1 + dy * j)) ∧ ∀ i, i < ny → (SearchedLayer ny y1 dy floor i ↔ i = j) := by
  cases floor with
  | none => exact .inl ⟨rfl, rfl⟩
  | some v =>
    right
    have hget : ∀ t, t < nx * ny → (s.map (·.y))[t]? = some (y1 + dy * ((t % ny : ℕ) : ℚ)) := by
      intro t ht
      have ht' : t < s.length := by rw [h.length]; exact ht
      obtain ⟨k, j, hk, hj, rfl⟩ := h.split ht'
      rw [List.getElem?_map, List.getElem?_eq_getElem ht', grid_mod hj, ← (h.cell k j hk hj).2.1]
      unfold row
      rw [List.getD_eq_getElem?_getD, List.getElem?_eq_getElem ht']
      rfl
    obtain ⟨a, l, hl⟩ : ∃ a l, s.map (·.y) = a :: l := by
      apply List.exists_cons_of_ne_nil
      intro h0
      have := hget 0 (Nat.mul_pos hnx hny)
      rw [h0] at this
      simp at this
    obtain ⟨A, y, B, e1, e2, e3, e4⟩ := argmin_spec (floorMeasure v) a l
    rw [← hl] at e2
    have hA : A.length < nx * ny := by
      have := congrArg List.length e2
      rw [List.length_map, h.length, List.length_append, List.length_cons] at this
      omega
    have hmin : ∀ i, i < ny → floorMeasure v y ≤ floorMeasure v (y1 + dy * i) := by
      intro i hi
      have hm : y1 + dy * (i : ℚ) ∈ s.map (·.y) := by
        have := hget i (lt_of_lt_of_le hi (Nat.le_mul_of_pos_left _ hnx))
        rw [Nat.mod_eq_of_lt hi] at this
        exact List.mem_of_getElem? this
      rw [e2] at hm
      rcases List.mem_append.mp hm with hm | hm
      · exact (e3 _ hm).le
      · rcases List.mem_cons.mp hm with hm | hm
        · rw [hm]
        · exact e4 _ hm
    have hfirst : ∀ t, t < A.length → floorMeasure v y < floorMeasure v (y1 + dy * ((t % ny : ℕ) : ℚ)) := by
      intro t ht
      have := hget t (by omega)
      rw [e2, List.getElem?_append_left ht] at this
      exact e3 _ (List.mem_of_getElem? this)
    have hy : y = y1 + dy * ((A.length % ny : ℕ) : ℚ) := by
      have := hget A.length hA
      rw [e2, List.getElem?_append_right le_rfl, Nat.sub_self] at this
      simpa using this
    have hlast : A.length < ny := by
      by_contra hc
      have h1 := hfirst (A.length % ny) (lt_of_lt_of_le (Nat.mod_lt _ hny) (not_lt.mp hc))
      rw [Nat.mod_mod, ← hy] at h1
      exact lt_irrefl _ h1
    rw [Nat.mod_eq_of_lt hlast] at hy
    have hm : ∀ z, floorMeasure v z = FloorDistance v z := fun z => rfl
    refine ⟨v, A.length, rfl, hlast, ?_, fun i hi => ⟨fun hs => ?_, ?_⟩⟩
    · unfold floorHeight
      simp only
      rw [hl]
      unfold floorLayer
      simp only
      rw [e1, hy]
      rfl
    · obtain ⟨s1, s2⟩ := hs v rfl
      rcases lt_trichotomy i A.length with hlt | heq | hgt
      · have h1 := hfirst i hlt
        rw [Nat.mod_eq_of_lt hi, hm, hm, hy] at h1
        exact absurd (s1 _ hlast) (not_le.mpr h1)
      · exact heq
      · have h1 := hmin i hi
        rw [hm, hm, hy] at h1
        exact absurd (s2 _ hgt) (not_lt.mpr h1)
    · rintro rfl v' hv
      obtain rfl := Option.some.inj hv
      refine ⟨fun i' hi' => ?_, fun i' hi' => ?_⟩
      · have := hmin i' hi'
        rw [hm, hm, hy] at this
        exact this
      · have := hfirst i' hi'
        rw [Nat.mod_eq_of_lt (by omega), hm, hm, hy] at this
        exact this

/-- **C122.** The contact line found in a map on a grid whose first column lies in `[0, dx]`, as read from a file: the ends of the longest periodic stretch of liquid bins of one layer, namely the
lowest layer with liquid bins or the one chosen by the floor; none exactly if there is no liquid bin there. -/
theorem C122_edges (read : γ → Except Err Flow) (o : CollectOpts) (fs : FS γ) (name : Text) (content : γ) (m : Map) (nx ny : ℕ) (dx dy x1 y1 : ℚ) (or : ℚ × ℚ) (c : ℚ)
    (hfile : fs.get? (splitPath name) = some content) (hread : read content = flowOf m) (h : OnGrid m nx ny dx dy x1 y1 or) (hnx : 0 < nx) (hny : 0 < ny) (hdx : 0 < dx) (hdy : 0 < dy)
    (hx : 0 ≤ x1 ∧ x1 ≤ dx) (hr : 0 ≤ o.radius ∧ o.radius < nx * dx) (hc : UsedCutoff (fun k j => val m.1 "M" (k * ny + j)) nx ny o.interface.cutoff c) :
    ∃ edges, fileFrame read o fs name = .ok ⟨nx * dx, edges, name⟩ ∧
      (edges = none ↔ ∀ k j, k < nx → j < ny → WetBin (fun k j => val m.1 "M" (k * ny + j)) nx ny dx dy o.radius c o.interface.bins k j → ¬ SearchedLayer ny y1 dy o.floor j) ∧
      ∀ xl xr, edges = some (xl, xr) → ∃ j start len, j < ny ∧ SearchedLayer ny y1 dy o.floor j ∧
        LongestStretch (fun k => WetBin (fun k j => val m.1 "M" (k * ny + j)) nx ny dx dy o.radius c o.interface.bins k j) nx start len ∧
        xl = x1 + dx * start ∧ xr = x1 + dx * (((start + len - 1) % nx : ℕ) : ℚ) ∧
        (o.floor = none → ∀ k i, k < nx → i < ny → WetBin (fun k j => val m.1 "M" (k * ny + j)) nx ny dx dy o.radius c o.interface.bins k i → j ≤ i) := by
  obtain ⟨s, hs, hlen, hcell⟩ := cells_grid h
  have hg : GridCells s (fun k j => val m.1 "M" (k * ny + j)) nx ny dx dy x1 y1 := ⟨hlen, hcell⟩
  generalize hM : (fun k j => val m.1 "M" (k * ny + j)) = M at hg hc ⊢
  have hnb : ((nx : ℤ) : ℚ) * dx = (nx : ℚ) * dx := by norm_num
  have hbox : boxSize ⟨m.1, ⟨some ((nx : ℤ), (ny : ℤ)), some or, some (dx, dy), some ((nx * ny : ℕ) : ℤ)⟩⟩ = some (((nx : ℤ) : ℚ) * dx, ((ny : ℤ) : ℚ) * dy) := rfl
  obtain ⟨yf, hyf, hyn, hys⟩ : ∃ yf, floorHeight o.floor (s.map (·.y)) = .ok yf ∧ (yf = none ↔ o.floor = none) ∧
      ∀ j, j < ny → (SearchedLayer ny y1 dy o.floor j ↔ ∀ y, yf = some y → y1 + dy * j = y) := by
    rcases hg.floor hnx hny o.floor with ⟨h1, h2⟩ | ⟨v, j, h1, hj, h2, h3⟩
    · refine ⟨none, h2, by simp [h1], fun j _ => ⟨fun _ y hy => (by cases hy), fun _ v hv => by rw [h1] at hv; cases hv⟩⟩
    · refine ⟨_, h2, by simp [h1], fun i hi => ?_⟩
      rw [h3 i hi]
      constructor
      · rintro rfl y hy
        exact Option.some.inj hy
      · intro hy
        have := hy _ rfl
        have hij : (i : ℚ) = j := mul_left_cancel₀ hdy.ne' (by linarith)
        exact_mod_cast hij
  obtain ⟨edges, g1, g2, g3⟩ := C91_longest s (((nx : ℤ) : ℚ) * dx, ((ny : ℤ) : ℚ) * dy) o.radius c o.floor yf { o.interface with longest := true } rfl (hg.cutoff hc) hyf hr.1
    (by simp only; rw [hnb]; exact hr.2) (by
      intro d hd
      obtain ⟨t, ht, rfl⟩ := List.getElem_of_mem hd
      obtain ⟨k, j, hk, hj, rfl⟩ := hg.split ht
      have hrow : s[k * ny + j] = row s (k * ny + j) := by
        unfold row
        rw [List.getD_eq_getElem?_getD, List.getElem?_eq_getElem ht, Option.getD_some]
      rw [hrow, (hg.cell k j hk hj).1]
      have hk' : (k : ℚ) + 1 ≤ nx := by exact_mod_cast hk
      have hk0 : (0 : ℚ) ≤ k := by positivity
      simp only
      rw [hnb]
      constructor
      · nlinarith [hx.1]
      · nlinarith [hx.2]) (by
      intro y
      by_cases hy : ∃ j : ℕ, j < ny ∧ y = y1 + dy * j
      · obtain ⟨j, hj, rfl⟩ := hy
        rw [hg.layer hdy hj, List.pairwise_map]
        refine List.Pairwise.imp_of_mem ?_ List.pairwise_lt_range
        intro a b ha hb hab
        rw [(hg.cell a j (List.mem_range.mp ha) hj).1, (hg.cell b j (List.mem_range.mp hb) hj).1]
        have : (a : ℚ) < b := by exact_mod_cast hab
        nlinarith
      · rw [hg.layer_none hy]
        exact List.Pairwise.nil)
  have hframe : fileFrame read o fs name = .ok ⟨nx * dx, edges, name⟩ := by
    unfold fileFrame
    rw [hfile, Option.elim_some, hread, flowOf_grid h]
    show frameOf _ _ _ _ _ = _
    unfold frameOf
    simp only
    rw [hs, Gmx.ok_bind, hbox, g1, Gmx.ok_bind]
    rcases edges with _ | e
    · simp only [Option.getD_some]
      rw [hnb]
    · simp only
      rw [hnb]
  refine ⟨edges, hframe, ?_, fun xl xr he => ?_⟩
  · rw [g2]
    constructor
    · intro hall k j hk hj hw hsl
      obtain ⟨y, hy1, hy2⟩ := hall _ ((hg.liquid o.radius c o.interface.bins hk hj).mpr hw)
      rw [(hg.cell k j hk hj).2.1] at hy2
      exact hy2 ((hys j hj).mp hsl y hy1)
    · intro hall t ht
      obtain ⟨k, j, hk, hj, rfl⟩ := hg.split ht.1
      have := hall k j hk hj ((hg.liquid o.radius c o.interface.bins hk hj).mp ht)
      rw [hys j hj] at this
      push Not at this
      obtain ⟨y, hy1, hy2⟩ := this
      exact ⟨y, hy1, by rw [(hg.cell k j hk hj).2.1]; exact hy2⟩
  · obtain ⟨y, start, len, i, i', hrun, e1, e2, e3, e4, e5, e6⟩ := g3 xl xr he
    have hlayer : ∃ j : ℕ, j < ny ∧ y = y1 + dy * j := by
      by_contra hcon
      rw [hg.layer_none hcon] at e1
      simp at e1
    obtain ⟨j, hj, rfl⟩ := hlayer
    have hst := hg.run hdy hj o.radius c o.interface.bins start len hrun
    have hst' := hst
    obtain ⟨s1, s2, s3, -, -⟩ := hst'
    rw [hg.layer hdy hj, List.getElem?_map, List.getElem?_range s3] at e1
    have e1 := Option.some.inj e1
    rw [hg.layer hdy hj, List.length_map, List.length_range, List.getElem?_map, List.getElem?_range (Nat.mod_lt _ hnx)] at e2
    have e2 := Option.some.inj e2
    refine ⟨j, start, len, hj, (hys j hj).mpr e5, hst, ?_, ?_, fun hfl k i'' hk hi hw => ?_⟩
    · rw [e3, ← e1, (hg.cell start j s3 hj).1]
    · rw [e4, ← e2, (hg.cell _ j (Nat.mod_lt _ hnx) hj).1]
    · have := e6 (hyn.mpr hfl) _ ((hg.liquid o.radius c o.interface.bins hk hi).mpr hw)
      rw [(hg.cell k i'' hk hi).2.1] at this
      have hij : (j : ℚ) ≤ i'' := le_of_mul_le_mul_left (by linarith) hdy
      exact_mod_cast hij

/-- **C122, uniform maps.** Without a cut-off, a map with the same mass in all bins has no contact line. -/
theorem C122_uniform (read : γ → Except Err Flow) (o : CollectOpts) (fs : FS γ) (name : Text) (content : γ) (m : Map) (nx ny : ℕ) (dx dy x1 y1 : ℚ) (or : ℚ × ℚ) (v : ℚ)
    (hfile : fs.get? (splitPath name) = some content) (hread : read content = flowOf m) (h : OnGrid m nx ny dx dy x1 y1 or) (hnx : 0 < nx) (hny : 0 < ny)
    (hc : o.interface.cutoff = none) (hv : ∀ t, t < nx * ny → val m.1 "M" t = v) :
    fileFrame read o fs name = .ok ⟨nx * dx, none, name⟩ := by
  obtain ⟨s, hs, hlen, hcell⟩ := cells_grid h
  have hg : GridCells s (fun k j => val m.1 "M" (k * ny + j)) nx ny dx dy x1 y1 := ⟨hlen, hcell⟩
  have hvals : ∀ x, x ∈ s.map (·.v) ↔ x = v := by
    intro x
    rw [hg.values]
    constructor
    · rintro ⟨k, j, hk, hj, rfl⟩
      exact hv _ (by rw [← hlen]; exact hg.lt hk hj)
    · rintro rfl
      exact ⟨0, 0, hnx, hny, hv _ (by rw [← hlen]; exact hg.lt hnx hny)⟩
  have hcut : getCutoff none s = .error .assertionError := by
    unfold getCutoff
    simp only
    rw [(npMin_ok_iff _ v).mpr ⟨(hvals v).mpr rfl, fun x hx => ((hvals x).mp hx).ge⟩, Gmx.ok_bind, (npMax_ok_iff _ v).mpr ⟨(hvals v).mpr rfl, fun x hx => ((hvals x).mp hx).le⟩, Gmx.ok_bind,
      if_neg (by simp)]
  have hnb : ((nx : ℤ) : ℚ) * dx = (nx : ℚ) * dx := by norm_num
  obtain ⟨yf, hyf⟩ : ∃ yf, floorHeight o.floor (s.map (·.y)) = .ok yf := by
    rcases hg.floor hnx hny o.floor with ⟨h1, h2⟩ | ⟨w, j, h1, hj, h2, h3⟩
    · exact ⟨_, h2⟩
    · exact ⟨_, h2⟩
  have he : spreadingEdges s (some (((nx : ℤ) : ℚ) * dx, ((ny : ℤ) : ℚ) * dy)) o.radius o.floor { o.interface with longest := true } = .ok none := by
    unfold spreadingEdges getInterface
    rw [hyf, Gmx.ok_bind]
    simp only [hc, hcut]
    rw [Gmx.ok_bind]
    rfl
  unfold fileFrame
  rw [hfile, Option.elim_some, hread, flowOf_grid h]
  show frameOf _ _ _ _ _ = _
  unfold frameOf
  simp only
  rw [hs, Gmx.ok_bind]
  show (spreadingEdges s (some (((nx : ℤ) : ℚ) * dx, ((ny : ℤ) : ℚ) * dy)) o.radius o.floor { o.interface with longest := true }).bind _ = _
  rw [he]
  show Except.ok _ = _
  simp only [boxSize, Option.getD_some]
  rw [hnb]

/-! ## A run -/

/-- Maps of 5 by 6 bins with little mass everywhere and more in the given bins, as gmx files; the second one has a droplet across the boundary. -/
def exRecOf (wet : List (ℕ × ℕ)) : Record :=
  [("X", (List.range 30).map fun t : ℕ => ((t / 6 : ℕ) : ℚ) / 2 + 1 / 4), ("Y", (List.range 30).map fun t : ℕ => ((t % 6 : ℕ) : ℚ) / 2 + 1 / 4),
    ("N", List.replicate 30 1), ("T", List.replicate 30 300), ("M", (List.range 30).map fun t : ℕ => if (t / 6, t % 6) ∈ wet then 4 else 1), ("U", List.replicate 30 0), ("V", List.replicate 30 0)]
def exBytes (wet : List (ℕ × ℕ)) : Bytes.Bytes := (Gmx.writeData Bytes.ieee32 (exRecOf wet) ⟨(5, 6), (1 / 2, 1 / 2), (0, 0)⟩).toOption.getD []
def exMapOf (wet : List (ℕ × ℕ)) : Map := (exRecOf wet, ⟨(5, 6), (some (1 / 2), some (1 / 2)), some (0, 0), 30⟩, 0)
def exWet : List (ℕ × ℕ) := [(2, 1), (3, 1), (2, 2)]
def exWet' : List (ℕ × ℕ) := [(3, 1), (4, 1), (0, 1), (4, 2)]
def exOpts : CollectOpts := { dt := 2, radius := 1 / 2 }
def exFiles : FS Bytes.Bytes := [((".".toList, "a00001".toList), exBytes []), ((".".toList, "a00002".toList), exBytes exWet), ((".".toList, "a00003".toList), exBytes exWet'),
  ((".".toList, "a00004".toList), [1, 2, 3]), ((".".toList, "out".toList), [7])]
def exDir : Dir := ["a00001".toList, "a00002".toList, "a00003".toList, "a00004".toList, "out".toList]

/-- The hypotheses of `C122_edges` and `C122_uniform` hold for them. -/
example : exFiles.get? (splitPath "a00003".toList) = some (exBytes exWet') ∧ readFlow Bytes.ieee32 (exBytes exWet') = flowOf (exMapOf exWet') ∧
    OnGrid (exMapOf exWet') 5 6 (1 / 2) (1 / 2) (1 / 4) (1 / 4) (0, 0) ∧ (0 ≤ exOpts.radius ∧ exOpts.radius < (5 : ℕ) * (1 / 2 : ℚ)) ∧
    UsedCutoff (fun k j => val (exMapOf exWet').1 "M" (k * 6 + j)) 5 6 exOpts.interface.cutoff (5 / 2) := by
  refine ⟨by decide +kernel, ?_, ⟨rfl, rfl, by decide +kernel, by decide +kernel⟩, by decide +kernel, .inr ⟨rfl, 1, 4, by norm_num, by norm_num, ⟨0, 0, by norm_num, by norm_num, by decide +kernel⟩,
    ⟨3, 1, by norm_num, by norm_num, by decide +kernel⟩, ?_⟩⟩
  · have : Driver.readDataFile Bytes.ieee32 (exBytes exWet') = .ok (exMapOf exWet') := by decide +kernel
    unfold readFlow
    rw [this]
    rfl
  · have : ∀ k : ℕ, k < 5 → ∀ j : ℕ, j < 6 → (1 : ℚ) ≤ val (exMapOf exWet').1 "M" (k * 6 + j) ∧ val (exMapOf exWet').1 "M" (k * 6 + j) ≤ 4 := by decide +kernel
    exact fun k j hk hj => this k hk j hj

/-- The edges found: none in the uniform map, and across the boundary in the third one. -/
example : fileFrame (readFlow Bytes.ieee32) exOpts exFiles "a00001".toList = .ok ⟨5 / 2, none, "a00001".toList⟩ ∧
    fileFrame (readFlow Bytes.ieee32) exOpts exFiles "a00002".toList = .ok ⟨5 / 2, some (5 / 4, 7 / 4), "a00002".toList⟩ ∧
    fileFrame (readFlow Bytes.ieee32) exOpts exFiles "a00003".toList = .ok ⟨5 / 2, some (7 / 4, 1 / 4), "a00003".toList⟩ ∧
    fileFrame (readFlow Bytes.ieee32) exOpts exFiles "a00004".toList = .error .keyError := by
  refine ⟨?_, ?_, ?_, ?_⟩ <;> decide +kernel

/-- The files found meet the hypotheses of `C121_saved` and `C121_read_back`. -/
example : byteStore.Lawful ∧ yieldSingles exDir "a".toList [] 1 none = ["a00001".toList, "a00002".toList, "a00003".toList, "a00004".toList] ∧
    ∀ n ∈ ["a00001".toList, "a00002".toList, "a00003".toList, "a00004".toList], splitPath n ≠ splitPath "out".toList ∧ exFiles.get? (splitPath n) ≠ none ∧
      ∀ c ∈ SpreadingText.fileName n, c ≠ '\n' := by
  refine ⟨byteStore_lawful, by decide +kernel, by decide +kernel⟩

/-- Two points are saved before the call ends with the exception of the last file. -/
example : (collectFiles (readFlow Bytes.ieee32) byteStore exHeader (some "out".toList) exOpts false exFiles exDir "a".toList [] 1 none).rows =
    [⟨0, 1 / 4, 5 / 4, 7 / 4⟩, ⟨2, 1 / 2, 7 / 4, 11 / 4⟩] := by decide +kernel

end Strata.SpreadingFiles
