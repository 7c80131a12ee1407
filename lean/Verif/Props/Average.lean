import Verif.Proofs.AverageProps
import Mathlib.Algebra.Order.BigOperators.Group.List
/-!
# Averaging (C18-C23)

`val r l t` is the value of field `l` in row `t` of a record, `valueAt r l x y` its value at a position (0 if
there is no bin), `Lattice r spacing x0 y0 nx ny` says that the record is a full y-major grid (Spec/Average.lean).
-/
namespace Strata.Average
open Strata Strata.Flow

/-! ## C18 -/

/-- **C18.** For data whose bins lie on a lattice, the combined grid is a regular y-major grid with the given
spacing, starting at the smallest and ending at the largest input coordinate, with zero in all other fields, and
every input bin coincides with exactly one grid bin. -/
theorem C18_combined_grid (ds : List Record) (spacing : ℚ × ℚ) (coords : Label × Label) (hxy : coords.1 ≠ coords.2)
    (hdx : 0 < spacing.1) (hdy : 0 < spacing.2)
    (hwf : ∀ d ∈ ds, Wf d ∧ coords.1 ∈ names d ∧ coords.2 ∈ names d) (hne : ∃ d ∈ ds, 0 < Flow.size d)
    (ox oy : ℚ) (hlat : ∀ d ∈ ds, OnLattice spacing ox oy d coords) :
    ∃ g xmin ymin, getCombinedGrid ds spacing coords = .ok g ∧
      Lattice g.data spacing xmin ymin g.nx g.ny coords ∧
      (∀ d, ds.head? = some d → names g.data = names d) ∧
      (∀ l, l ≠ coords.1 → l ≠ coords.2 → ∀ t, val g.data l t = 0) ∧
      (∃ d ∈ ds, ∃ t, t < Flow.size d ∧ val d coords.1 t = xmin) ∧
      (∃ d ∈ ds, ∃ t, t < Flow.size d ∧ val d coords.2 t = ymin) ∧
      (∃ d ∈ ds, ∃ t, t < Flow.size d ∧ val d coords.1 t = xmin + spacing.1 * ((g.nx - 1 : ℕ) : ℚ)) ∧
      (∃ d ∈ ds, ∃ t, t < Flow.size d ∧ val d coords.2 t = ymin + spacing.2 * ((g.ny - 1 : ℕ) : ℚ)) ∧
      (∀ d ∈ ds, ∀ s, s < Flow.size d → ∃! t, t < g.nx * g.ny ∧
        val g.data coords.1 t = val d coords.1 s ∧ val g.data coords.2 t = val d coords.2 s) := by
  obtain ⟨g, xmin, ymin, h1, h2, h3, h4, h5, h6, h7, h8, h9⟩ :=
    combinedGrid_spec ds spacing coords hxy hdx hdy hwf hne ox oy hlat
  refine ⟨g, xmin, ymin, h1, h2, h3, h4, h5, h6, h7, h8, ?_⟩
  intro d hd s hs
  obtain ⟨i, j, hi, hj, e1, e2⟩ := h9 d hd s hs
  have hr := h2.row hi hj
  refine ⟨j * g.nx + i, ⟨grid_lt hi hj, by rw [hr.1, e1], by rw [hr.2, e2]⟩, ?_⟩
  rintro t ⟨ht, f1, f2⟩
  exact h2.unique hdx hdy ht (grid_lt hi hj) (by rw [f1, hr.1, e1]) (by rw [f2, hr.2, e2])

/-- **C18.** Without input there is no grid. -/
theorem C18_no_data (spacing : ℚ × ℚ) (coords : Label × Label) :
    getCombinedGrid [] spacing coords = .error .valueError := rfl

/-- A 2×1 map at x = 1, 2 and y = 3. -/
def exA : Flow := ⟨[("X", [1, 2]), ("Y", [3, 3]), ("M", [4, 6]), ("U", [1, 2])], { shape := some (2, 1), spacing := some (1, 2) }⟩

/-- A 1×2 map at x = 2 and y = 3, 5. -/
def exB : Flow := ⟨[("X", [2, 2]), ("Y", [3, 5]), ("M", [2, 8]), ("U", [5, 7])], { shape := some (1, 2), spacing := some (1, 2) }⟩

example : getCombinedGrid [exA.data, exB.data] (1, 2) =
    .ok ⟨2, 2, [("X", [1, 2, 1, 2]), ("Y", [3, 3, 5, 5]), ("M", [0, 0, 0, 0]), ("U", [0, 0, 0, 0])]⟩ := by decide +kernel

/-- The hypotheses of C18 hold for these. -/
theorem exA_onLattice : OnLattice (1, 2) 1 3 exA.data ∧ OnLattice (1, 2) 1 3 exB.data := by
  constructor
  · intro t ht
    have : t = 0 ∨ t = 1 := by
      have : Flow.size exA.data = 2 := rfl
      omega
    rcases this with rfl | rfl
    · exact ⟨⟨0, by decide +kernel⟩, ⟨0, by decide +kernel⟩⟩
    · exact ⟨⟨1, by decide +kernel⟩, ⟨0, by decide +kernel⟩⟩
  · intro t ht
    have : t = 0 ∨ t = 1 := by
      have : Flow.size exB.data = 2 := rfl
      omega
    rcases this with rfl | rfl
    · exact ⟨⟨1, by decide +kernel⟩, ⟨0, by decide +kernel⟩⟩
    · exact ⟨⟨1, by decide +kernel⟩, ⟨1, by decide +kernel⟩⟩

theorem exA_wf : Wf exA.data ∧ Wf exB.data := by
  constructor <;> exact ⟨by decide, by decide +kernel⟩

theorem exA_gridMap : GridMap exA (1, 2) ∧ GridMap exB (1, 2) := by
  refine ⟨⟨1, 3, 2, 1, rfl, rfl, ?_⟩, ⟨2, 3, 1, 2, rfl, rfl, ?_⟩⟩
  · refine ⟨exA_wf.1, by decide, by decide, rfl, by decide, by decide, ?_, ?_⟩ <;> intro t ht <;>
      (have : t = 0 ∨ t = 1 := by omega) <;> rcases this with rfl | rfl <;> decide +kernel
  · refine ⟨exA_wf.2, by decide, by decide, rfl, by decide, by decide, ?_, ?_⟩ <;> intro t ht <;>
      (have : t = 0 ∨ t = 1 := by omega) <;> rcases this with rfl | rfl <;> decide +kernel

example : ∃ g xmin ymin, getCombinedGrid [exA.data, exB.data] (1, 2) = .ok g ∧ Lattice g.data (1, 2) xmin ymin g.nx g.ny := by
  obtain ⟨g, x, y, h, h', -⟩ := C18_combined_grid [exA.data, exB.data] (1, 2) ("X", "Y") (by decide) (by decide +kernel) (by decide +kernel)
    (by
      intro d hd
      simp only [List.mem_cons, List.not_mem_nil, or_false] at hd
      rcases hd with rfl | rfl
      · exact ⟨exA_wf.1, by decide, by decide⟩
      · exact ⟨exA_wf.2, by decide, by decide⟩)
    ⟨exA.data, by simp, by decide⟩ 1 3
    (by
      intro d hd
      simp only [List.mem_cons, List.not_mem_nil, or_false] at hd
      rcases hd with rfl | rfl
      · exact exA_onLattice.1
      · exact exA_onLattice.2)
  exact ⟨g, x, y, h, h'⟩

/-! ## C19 -/

/-- **C19.** Data whose bins are a sub-grid of the grid is projected: the result has the coordinates and fields of
the grid, each grid bin at the position of a data bin takes all values of that data bin, every other grid bin keeps
its own values. -/
theorem C19_transfer (g : Grid) (data : Record) (sp : ℚ × ℚ) (co : Label × Label) (xg yg xd yd : ℚ) (nx ny : ℕ)
    (hx : 0 < sp.1) (hy : 0 < sp.2) (hg : Lattice g.data sp xg yg g.nx g.ny co) (hd : Lattice data sp xd yd nx ny co)
    (hsub : ∀ s, s < nx * ny → ∃ t, t < g.nx * g.ny ∧
      val g.data co.1 t = val data co.1 s ∧ val g.data co.2 t = val data co.2 s)
    (hn : names data = names g.data) :
    ∃ r, transferData g data (some ((nx : ℤ), (ny : ℤ))) sp co = .ok r ∧ names r = names g.data ∧
      Lattice r sp xg yg g.nx g.ny co ∧
      (∀ s t, s < nx * ny → t < g.nx * g.ny → val g.data co.1 t = val data co.1 s →
        val g.data co.2 t = val data co.2 s → ∀ l, val r l t = val data l s) ∧
      (∀ t, t < g.nx * g.ny → (∀ s, s < nx * ny → ¬ (val g.data co.1 t = val data co.1 s ∧
        val g.data co.2 t = val data co.2 s)) → ∀ l, val r l t = val g.data l t) := by
  obtain ⟨i0, j0, rfl, rfl, hi, hj⟩ := subset_offsets hx hy hg hd hsub
  obtain ⟨r, h1, h2, h3, h4, h5⟩ := transferData_spec g data sp co xg yg i0 j0 nx ny hx hy hg hd hi hj hn
  refine ⟨r, h1, h2, transfer_lattice hg hd h2 h3 h4 h5, ?_, ?_⟩
  · intro s t hs ht e1 e2 l
    obtain ⟨a, b, c⟩ := grid_decomp hs
    rw [hd.x s hs, hg.x t ht] at e1
    rw [hd.y s hs, hg.y t ht] at e2
    have e1 : sp.1 * ((t % g.nx : ℕ) : ℚ) = sp.1 * ((i0 + s % nx : ℕ) : ℚ) := by push_cast; linarith
    have e2 : sp.2 * ((t / g.nx : ℕ) : ℚ) = sp.2 * ((j0 + s / nx : ℕ) : ℚ) := by push_cast; linarith
    have e1 : t % g.nx = i0 + s % nx := by exact_mod_cast mul_left_cancel₀ hx.ne' e1
    have e2 : t / g.nx = j0 + s / nx := by exact_mod_cast mul_left_cancel₀ hy.ne' e2
    have hw : inWindow g.nx i0 j0 nx ny t := by
      unfold inWindow
      rw [e1, e2]
      exact ⟨Nat.le_add_right _ _, by omega, Nat.le_add_right _ _, by omega⟩
    rw [h5 l t ht, if_pos hw, e1, e2, Nat.add_sub_cancel_left, Nat.add_sub_cancel_left, ← c]
  · intro t ht hno l
    rw [h5 l t ht, if_neg]
    intro hw
    unfold inWindow at hw
    have hi' : t % g.nx - i0 < nx := by omega
    have hj' : t / g.nx - j0 < ny := by omega
    have hr := hd.row hi' hj'
    apply hno _ (grid_lt hi' hj')
    rw [hr.1, hr.2, hg.x t ht, hg.y t ht, Nat.cast_sub hw.1, Nat.cast_sub hw.2.2.1]
    constructor <;> ring

/-- **C19.** Projecting onto a grid where a field is zero preserves the total of the field. -/
theorem C19_total_preserved (g : Grid) (data : Record) (sp : ℚ × ℚ) (co : Label × Label) (xg yg xd yd : ℚ) (nx ny : ℕ)
    (hx : 0 < sp.1) (hy : 0 < sp.2) (hg : Lattice g.data sp xg yg g.nx g.ny co) (hd : Lattice data sp xd yd nx ny co)
    (hsub : ∀ s, s < nx * ny → ∃ t, t < g.nx * g.ny ∧
      val g.data co.1 t = val data co.1 s ∧ val g.data co.2 t = val data co.2 s)
    (hn : names data = names g.data) (l : Label) (hl : l ∈ names data) (hz : ∀ t, val g.data l t = 0) (r : Record)
    (hr : transferData g data (some ((nx : ℤ), (ny : ℤ))) sp co = .ok r) : total r l = total data l := by
  obtain ⟨i0, j0, rfl, rfl, hi, hj⟩ := subset_offsets hx hy hg hd hsub
  obtain ⟨r', h1, h2, h3, h4, h5⟩ := transferData_spec g data sp co xg yg i0 j0 nx ny hx hy hg hd hi hj hn
  rw [h1] at hr
  obtain rfl := Except.ok.inj hr
  unfold total
  rw [total_eq h3 (by rw [h2, ← hn]; exact hl), total_eq hd.wf hl, h4, hd.size, ← sum_transfer g.nx g.ny i0 j0 nx ny hi hj]
  apply Finset.sum_congr rfl
  intro t ht
  rw [Finset.mem_range] at ht
  rw [h5 l t ht, hz t]

example : transferData ⟨2, 2, [("X", [1, 2, 1, 2]), ("Y", [3, 3, 5, 5]), ("M", [0, 0, 0, 0]), ("U", [0, 9, 9, 0])]⟩
    exB.data (some (1, 2)) (1, 2) =
    .ok [("X", [1, 2, 1, 2]), ("Y", [3, 3, 5, 5]), ("M", [0, 2, 0, 8]), ("U", [0, 5, 9, 7])] := by decide +kernel

/-! ## C20 -/

/-- **C20.** Fields that are neither coordinates nor weighted hold the arithmetic mean of the inputs in each bin;
coordinates are those of the first input; labels and number of bins are unchanged. -/
theorem C20_arithmetic_mean (huge : ℚ) (ds : List Record) (ws : List (Label × Label)) (co : Label × Label)
    (ls : List Label) (n : ℕ) (hne : ds ≠ []) (hu : Uniform ds ls n) (hnd : (ws.map Prod.fst).Nodup)
    (hws : ∀ p ∈ ws, p.1 ∈ ls ∧ p.2 ∈ ls ∧ p.2 ≠ co.1 ∧ p.2 ≠ co.2 ∧ ∀ q ∈ ws, q.1 ≠ p.2) :
    ∃ r, averageData huge ds ws co = .ok r ∧ Wf r ∧ names r = ls ∧ Flow.size r = n ∧
      (∀ d, ds.head? = some d → ∀ l, (l = co.1 ∨ l = co.2) → (∀ p ∈ ws, p.1 ≠ l) → ∀ t, val r l t = val d l t) ∧
      ∀ l ∈ ls, l ≠ co.1 → l ≠ co.2 → (∀ p ∈ ws, p.1 ≠ l) → ∀ t, t < n →
        val r l t = (ds.map fun d => val d l t).sum / ds.length := by
  obtain ⟨r, h1, h2, h3, h4, h5, h6, -⟩ := averageData_spec huge ds ws co ls n hne hu hnd hws
  exact ⟨r, h1, h2, h3, h4, h5, h6⟩

/-- **C20.** Averaging copies of one record returns it. -/
theorem C20_copies (huge : ℚ) (d : Record) (hw : Wf d) (k : ℕ) (co : Label × Label) :
    averageData huge (List.replicate (k + 1) d) [] co = .ok d := by
  have hu : Uniform (List.replicate (k + 1) d) (names d) (Flow.size d) := by
    intro e he
    rw [List.eq_of_mem_replicate he]
    exact ⟨hw, rfl, rfl⟩
  obtain ⟨r, h1, h2, h3, h4, h5, h6, -⟩ := averageData_spec huge (List.replicate (k + 1) d) [] co (names d) (Flow.size d)
    (by simp) hu (by simp) (by simp)
  rw [h1]
  congr 1
  apply record_ext_val h2 hw h3 h4
  intro l hl t ht
  rw [h3] at hl
  rw [h4] at ht
  by_cases hc : l = co.1 ∨ l = co.2
  · exact h5 d (by simp [List.replicate_succ]) l hc (by simp) t
  · rw [not_or] at hc
    rw [h6 l hl hc.1 hc.2 (by simp) t ht, List.map_replicate, List.length_replicate]
    exact sum_replicate_div k _

/-- **C20.** The mean lies between the smallest and the largest input. -/
theorem C20_bounds (huge : ℚ) (ds : List Record) (co : Label × Label) (ls : List Label) (n : ℕ) (hne : ds ≠ [])
    (hu : Uniform ds ls n) (l : Label) (hl : l ∈ ls) (h1 : l ≠ co.1) (h2 : l ≠ co.2) (t : ℕ) (ht : t < n)
    (lo hi : ℚ) (hb : ∀ d ∈ ds, lo ≤ val d l t ∧ val d l t ≤ hi) (r : Record) (hr : averageData huge ds [] co = .ok r) :
    lo ≤ val r l t ∧ val r l t ≤ hi := by
  obtain ⟨r', e, -, -, -, -, h6, -⟩ := averageData_spec huge ds [] co ls n hne hu (by simp) (by simp)
  rw [e] at hr
  obtain rfl := Except.ok.inj hr
  rw [h6 l hl h1 h2 (by simp) t ht]
  exact mean_bounds ds hne _ lo hi hb

/-- **C20.** The order of the inputs does not matter if they share their coordinates. -/
theorem C20_order (huge : ℚ) (ds ds' : List Record) (ws : List (Label × Label)) (co : Label × Label)
    (ls : List Label) (n : ℕ) (hp : ds.Perm ds') (hne : ds ≠ []) (hu : Uniform ds ls n) (hnd : (ws.map Prod.fst).Nodup)
    (hws : ∀ p ∈ ws, p.1 ∈ ls ∧ p.2 ∈ ls ∧ p.2 ≠ co.1 ∧ p.2 ≠ co.2 ∧ ∀ q ∈ ws, q.1 ≠ p.2)
    (hco : ∀ d ∈ ds, ∀ e ∈ ds, col? d co.1 = col? e co.1 ∧ col? d co.2 = col? e co.2) :
    averageData huge ds ws co = averageData huge ds' ws co := by
  have hu' : Uniform ds' ls n := fun d hd => hu d (hp.mem_iff.mpr hd)
  have hne' : ds' ≠ [] := fun h => hne (by rw [h] at hp; exact hp.eq_nil)
  obtain ⟨r, h1, h2, h3, h4, h5, h6, h7⟩ := averageData_spec huge ds ws co ls n hne hu hnd hws
  obtain ⟨r', h1', h2', h3', h4', h5', h6', h7'⟩ := averageData_spec huge ds' ws co ls n hne' hu' hnd hws
  rw [h1, h1']
  congr 1
  apply record_ext_val h2 h2' (by rw [h3, h3']) (by rw [h4, h4'])
  intro l hl t ht
  rw [h3] at hl
  rw [h4] at ht
  by_cases hwl : ∃ p ∈ ws, p.1 = l
  · obtain ⟨p, hp', rfl⟩ := hwl
    rw [h7 p hp' t ht, h7' p hp' t ht]
    congr 1
    · exact (hp.map _).sum_eq
    · exact (hp.map _).sum_eq
  · push Not at hwl
    by_cases hc : l = co.1 ∨ l = co.2
    · cases hd : ds with
      | nil => exact absurd hd hne
      | cons a as =>
        cases hd' : ds' with
        | nil => exact absurd hd' hne'
        | cons b bs =>
          rw [h5 a (by rw [hd]; rfl) l hc hwl t, h5' b (by rw [hd']; rfl) l hc hwl t]
          have hab := hco a (by rw [hd]; simp) b (hp.mem_iff.mpr (by rw [hd']; simp))
          unfold val
          rcases hc with rfl | rfl
          · rw [hab.1]
          · rw [hab.2]
    · rw [not_or] at hc
      rw [h6 l hl hc.1 hc.2 hwl t ht, h6' l hl hc.1 hc.2 hwl t ht, (hp.map _).sum_eq, hp.length_eq]

/-- Two records on one grid. -/
def rec1 : Record := [("X", [0, 1]), ("Y", [0, 0]), ("M", [1, 0]), ("U", [4, 5])]
def rec2 : Record := [("X", [0, 1]), ("Y", [0, 0]), ("M", [3, 0]), ("U", [8, 7])]

theorem rec_uniform : Uniform [rec1, rec2] ["X", "Y", "M", "U"] 2 := by
  intro d hd
  simp only [List.mem_cons, List.not_mem_nil, or_false] at hd
  rcases hd with rfl | rfl <;> exact ⟨⟨by decide, by decide +kernel⟩, by decide, by decide⟩

example : averageData 999 [rec1, rec2] [] = .ok [("X", [0, 1]), ("Y", [0, 0]), ("M", [2, 0]), ("U", [6, 6])] := by
  decide +kernel

example : ∃ r, averageData 999 [rec1, rec2] [("U", "M")] ("X", "Y") = .ok r :=
  let ⟨r, h, _⟩ := C20_arithmetic_mean 999 [rec1, rec2] [("U", "M")] ("X", "Y") _ 2 (by simp) rec_uniform
    (by simp) (by decide)
  ⟨r, h⟩

/-! ## C21 -/

/-- **C21.** A weighted field holds the weighted mean over the inputs in each bin where the weights do not sum to
zero, and 0 in bins where every weight is zero. -/
theorem C21_weighted_mean (huge : ℚ) (ds : List Record) (ws : List (Label × Label)) (co : Label × Label)
    (ls : List Label) (n : ℕ) (hne : ds ≠ []) (hu : Uniform ds ls n) (hnd : (ws.map Prod.fst).Nodup)
    (hws : ∀ p ∈ ws, p.1 ∈ ls ∧ p.2 ∈ ls ∧ p.2 ≠ co.1 ∧ p.2 ≠ co.2 ∧ ∀ q ∈ ws, q.1 ≠ p.2)
    (l w : Label) (hlw : (l, w) ∈ ws) :
    ∃ r, averageData huge ds ws co = .ok r ∧ ∀ t, t < n →
      ((ds.map fun d => val d w t).sum ≠ 0 →
        val r l t = (ds.map fun d => val d l t * val d w t).sum / (ds.map fun d => val d w t).sum) ∧
      ((∀ d ∈ ds, val d w t = 0) → val r l t = 0) := by
  obtain ⟨r, h1, h2, h3, h4, h5, h6, h7⟩ := averageData_spec huge ds ws co ls n hne hu hnd hws
  refine ⟨r, h1, fun t ht => ⟨fun hs => ?_, fun hz => ?_⟩⟩
  · rw [h7 (l, w) hlw t ht]
    simp only [divNan, hs, if_false]
  · rw [h7 (l, w) hlw t ht]
    have e1 : (ds.map fun d => val d w t).sum = 0 := by
      apply List.sum_eq_zero
      simp only [List.mem_map, forall_exists_index, and_imp, forall_apply_eq_imp_iff₂]
      exact hz
    have e2 : (ds.map fun d => val d l t * val d w t).sum = 0 := by
      apply List.sum_eq_zero
      simp only [List.mem_map, forall_exists_index, and_imp, forall_apply_eq_imp_iff₂]
      intro d hd
      rw [hz d hd, mul_zero]
    simp only [e1, e2, divNan, if_true]

/-- **C21.** For non-negative weights the product of averaged weight and averaged value is the mean of the products:
the total (e.g. momentum) over the inputs is kept. -/
theorem C21_conserved (huge : ℚ) (ds : List Record) (ws : List (Label × Label)) (co : Label × Label)
    (ls : List Label) (n : ℕ) (hne : ds ≠ []) (hu : Uniform ds ls n) (hnd : (ws.map Prod.fst).Nodup)
    (hws : ∀ p ∈ ws, p.1 ∈ ls ∧ p.2 ∈ ls ∧ p.2 ≠ co.1 ∧ p.2 ≠ co.2 ∧ ∀ q ∈ ws, q.1 ≠ p.2)
    (l w : Label) (hlw : (l, w) ∈ ws) (hpos : ∀ d ∈ ds, ∀ t, 0 ≤ val d w t) :
    ∃ r, averageData huge ds ws co = .ok r ∧ ∀ t, t < n →
      (ds.length : ℚ) * (val r w t * val r l t) = (ds.map fun d => val d w t * val d l t).sum := by
  obtain ⟨r, h1, h2, h3, h4, h5, h6, h7⟩ := averageData_spec huge ds ws co ls n hne hu hnd hws
  obtain ⟨r', h1', hv⟩ := C21_weighted_mean huge ds ws co ls n hne hu hnd hws l w hlw
  rw [h1] at h1'
  obtain rfl := Except.ok.inj h1'
  refine ⟨r, h1, fun t ht => ?_⟩
  obtain ⟨_, a2, a3, a4, a5⟩ := hws (l, w) hlw
  rw [h6 w a2 a3 a4 a5 t ht]
  have hcomm : (ds.map fun d => val d w t * val d l t) = ds.map fun d => val d l t * val d w t := by
    apply List.map_congr_left; intro d _; ring
  rw [hcomm]
  have hlen : (ds.length : ℚ) ≠ 0 := by
    have := List.length_pos_of_ne_nil hne
    positivity
  by_cases hs : (ds.map fun d => val d w t).sum = 0
  · have hall : ∀ d ∈ ds, val d w t = 0 := by
      intro d hd
      refine List.all_zero_of_le_zero_le_of_sum_eq_zero (l := ds.map fun d => val d w t) ?_ hs (List.mem_map_of_mem hd)
      simp only [List.mem_map, forall_exists_index, and_imp, forall_apply_eq_imp_iff₂]
      exact fun d hd => hpos d hd t
    have e2 : (ds.map fun d => val d l t * val d w t).sum = 0 := by
      apply List.sum_eq_zero
      simp only [List.mem_map, forall_exists_index, and_imp, forall_apply_eq_imp_iff₂]
      intro d hd
      rw [hall d hd, mul_zero]
    rw [hs, e2]; simp
  · rw [(hv t ht).1 hs]
    field_simp

/-- **C21.** A label or weight that is not a field raises `KeyError`. -/
theorem C21_missing_label (huge : ℚ) (ds : List Record) (ws : List (Label × Label)) (co : Label × Label)
    (ls : List Label) (n : ℕ) (hne : ds ≠ []) (hu : Uniform ds ls n) (hp : ∃ p ∈ ws, p.1 ∉ ls ∨ p.2 ∉ ls) :
    averageData huge ds ws co = .error .keyError := averageData_missing huge ds ws co ls n hne hu hp

example : averageData 999 [rec1, rec2] [("U", "M")] =
    .ok [("X", [0, 1]), ("Y", [0, 0]), ("M", [2, 0]), ("U", [7, 0])] := by decide +kernel

example : averageData 999 [rec1, rec2] [("U", "N")] = .error .keyError :=
  C21_missing_label 999 _ _ _ _ 2 (by simp) rec_uniform ⟨("U", "N"), by simp, by decide⟩

/-! ## C22 -/

/-- **C22.** The average of maps that share spacing and lie on one lattice: a full grid with consistent information
that contains exactly the range of the inputs, where each unweighted field is the mean over the maps of the value at
that position (0 outside a map) and each weighted field the weighted mean.  `exclude_empty_sets` makes no
difference for such maps. -/
theorem C22_average (huge : ℚ) (maps : List Flow) (ws : List (Label × Label)) (ex : Bool) (sp : ℚ × ℚ)
    (ox oy : ℚ) (ls : List Label) (hne : maps ≠ []) (hx : 0 < sp.1) (hy : 0 < sp.2)
    (hm : ∀ f ∈ maps, GridMap f sp ∧ OnLattice sp ox oy f.data ∧ names f.data = ls)
    (hnd : (ws.map Prod.fst).Nodup)
    (hws : ∀ p ∈ ws, p.1 ∈ ls ∧ p.2 ∈ ls ∧ p.1 ≠ "X" ∧ p.1 ≠ "Y" ∧ p.2 ≠ "X" ∧ p.2 ≠ "Y" ∧ ∀ q ∈ ws, q.1 ≠ p.2) :
    ∃ out x0 y0, ∃ nx ny : ℕ, averageFlowData huge maps ws ex = .ok out ∧
      Lattice out.data sp x0 y0 nx ny ∧ names out.data = ls ∧
      out.info = { shape := some ((nx : ℤ), (ny : ℤ)), origin := some (x0, y0), spacing := some sp, numBins := some (nx * ny) } ∧
      (∀ f ∈ maps, ∀ s, s < Flow.size f.data → ∃ t, t < nx * ny ∧
        val f.data "X" s = val out.data "X" t ∧ val f.data "Y" s = val out.data "Y" t) ∧
      (∃ f ∈ maps, ∃ s, s < Flow.size f.data ∧ val f.data "X" s = x0) ∧
      (∃ f ∈ maps, ∃ s, s < Flow.size f.data ∧ val f.data "Y" s = y0) ∧
      (∃ f ∈ maps, ∃ s, s < Flow.size f.data ∧ val f.data "X" s = x0 + sp.1 * ((nx - 1 : ℕ) : ℚ)) ∧
      (∃ f ∈ maps, ∃ s, s < Flow.size f.data ∧ val f.data "Y" s = y0 + sp.2 * ((ny - 1 : ℕ) : ℚ)) ∧
      (∀ l ∈ ls, l ≠ "X" → l ≠ "Y" → (∀ p ∈ ws, p.1 ≠ l) → ∀ t, t < nx * ny → val out.data l t =
        (maps.map fun f => valueAt f.data l (val out.data "X" t) (val out.data "Y" t)).sum / maps.length) ∧
      ∀ p ∈ ws, ∀ t, t < nx * ny →
        (maps.map fun f => valueAt f.data p.2 (val out.data "X" t) (val out.data "Y" t)).sum ≠ 0 →
        val out.data p.1 t =
          (maps.map fun f => valueAt f.data p.1 (val out.data "X" t) (val out.data "Y" t) *
            valueAt f.data p.2 (val out.data "X" t) (val out.data "Y" t)).sum /
          (maps.map fun f => valueAt f.data p.2 (val out.data "X" t) (val out.data "Y" t)).sum := by
  obtain ⟨out, x0, y0, nx, ny, h1, h2, h3, h4, h5, h6, h7, h8, h9, h10, h11⟩ :=
    averageFlow_spec huge maps ws ex sp ox oy ls hne hx hy hm hnd hws
  refine ⟨out, x0, y0, nx, ny, h1, h2, h3, h4, h5, h6, h7, h8, h9, h10, ?_⟩
  intro p hp t ht hs
  rw [h11 p hp t ht]
  simp only [divNan, hs, if_false]

/-- **C22.** No input: `ValueError`. -/
theorem C22_no_input (huge : ℚ) (ws : List (Label × Label)) (ex : Bool) (co : Label × Label) :
    averageFlowData huge [] ws ex co = .error .valueError := rfl

/-- **C22.** A single map without spacing: `ValueError`. -/
theorem C22_unset_spacing_partial (huge : ℚ) (f : Flow) (ws : List (Label × Label)) (ex : Bool) (co : Label × Label)
    (h : f.info.spacing = none) : averageFlowData huge [f] ws ex co = .error .valueError := by
  unfold averageFlowData getSpacing
  simp only [bind, Except.bind, h]
  rfl

/-- **C22.** Spacings that are all set but differ: `ValueError`. -/
theorem C22_different_spacing (huge : ℚ) (f : Flow) (rest : List Flow) (ws : List (Label × Label)) (ex : Bool)
    (co : Label × Label) (hs : ∀ g ∈ f :: rest, g.info.spacing ≠ none)
    (hd : ∃ g ∈ rest, ∃ a b, g.info.spacing = some a ∧ f.info.spacing = some b ∧
      (1 / 100000000 + 1 / 100000 * |b.1| < |a.1 - b.1| ∨ 1 / 100000000 + 1 / 100000 * |b.2| < |a.2 - b.2|)) :
    averageFlowData huge (f :: rest) ws ex co = .error .valueError := by
  have key : ∀ rest : List Flow, (∀ g ∈ rest, g.info.spacing ≠ none) → (∃ g ∈ rest, ∃ a b, g.info.spacing = some a ∧
      f.info.spacing = some b ∧
      (1 / 100000000 + 1 / 100000 * |b.1| < |a.1 - b.1| ∨ 1 / 100000000 + 1 / 100000 * |b.2| < |a.2 - b.2|)) →
      rest.forM (fun g => spacingAgrees f.info.spacing g.info.spacing) = .error .valueError := by
    intro rest
    induction rest with
    | nil => intro _ h; simp at h
    | cons g rest ih =>
      intro hs hd
      show (spacingAgrees f.info.spacing g.info.spacing >>= fun _ => rest.forM _) = _
      obtain ⟨b, hb⟩ := Option.ne_none_iff_exists'.mp (hs g (by simp))
      obtain ⟨g', hg', a, c, e1, e2, e3⟩ := hd
      rw [hb, e2]
      unfold spacingAgrees
      simp only
      split
      · rename_i hcl
        rcases List.mem_cons.mp hg' with rfl | hg'
        · rw [hb] at e1
          obtain rfl := Option.some.inj e1
          unfold isClose at hcl
          simp only [decide_eq_true_eq] at hcl
          rcases e3 with h | h
          · exact absurd hcl.1 (not_le.mpr h)
          · exact absurd hcl.2 (not_le.mpr h)
        · have := ih (fun g hg => hs g (by simp [hg])) ⟨g', hg', a, c, e1, e2, e3⟩
          rw [e2] at this
          exact this
      · rfl
  have := key rest (fun g hg => hs g (by simp [hg])) hd
  unfold averageFlowData getSpacing
  simp only [bind, Except.bind, this]

/-- **C22.** The documented `ValueError` for unset spacing does not come if there are several maps: two maps
without spacing raise `TypeError`, whatever they contain. -/
theorem C22_unset_spacing_counterexample (huge : ℚ) (f g : Flow) (rest : List Flow) (ws : List (Label × Label)) (ex : Bool)
    (co : Label × Label) (hf : f.info.spacing = none) :
    averageFlowData huge (f :: g :: rest) ws ex co = .error .typeError := by
  unfold averageFlowData getSpacing
  have : (g :: rest).forM (fun h => spacingAgrees f.info.spacing h.info.spacing) = .error .typeError := by
    show (spacingAgrees f.info.spacing g.info.spacing >>= fun _ => rest.forM _) = _
    rw [hf]
    unfold spacingAgrees
    rcases g.info.spacing with _ | s <;> rfl
  simp only [bind, Except.bind, this]

example : averageFlowData 999 [exA, exB] [] = .ok ⟨[("X", [1, 2, 1, 2]), ("Y", [3, 3, 5, 5]), ("M", [2, 4, 0, 4]),
    ("U", [1 / 2, 7 / 2, 0, 7 / 2])], { shape := some (2, 2), origin := some (1, 3), spacing := some (1, 2), numBins := some 4 }⟩ := by
  decide +kernel

theorem exAB_hyp : ∀ f ∈ [exA, exB], GridMap f (1, 2) ∧ OnLattice (1, 2) 1 3 f.data ∧ names f.data = ["X", "Y", "M", "U"] := by
  intro f hf
  simp only [List.mem_cons, List.not_mem_nil, or_false] at hf
  rcases hf with rfl | rfl
  · exact ⟨exA_gridMap.1, exA_onLattice.1, rfl⟩
  · exact ⟨exA_gridMap.2, exA_onLattice.2, rfl⟩

example : ∃ out, averageFlowData 999 [exA, exB] [("U", "M")] true = .ok out := by
  obtain ⟨out, _, _, _, _, h, -⟩ := C22_average 999 [exA, exB] [("U", "M")] true (1, 2) 1 3 _ (by simp)
    (by decide +kernel) (by decide +kernel) exAB_hyp (by simp) (by decide)
  exact ⟨out, h⟩

/-! ## C23 -/

/-- **C23.** With `exclude_empty_sets=True` empty maps do not influence the result (including failures), as long as
all maps have the spacing set alike. -/
theorem C23_excluded_partial (huge : ℚ) (maps : List Flow) (ws : List (Label × Label)) (co : Label × Label) (sp : ℚ × ℚ)
    (hs : ∀ f ∈ maps, f.info.spacing = some sp) :
    averageFlowData huge maps ws true co =
      averageFlowData huge (maps.filter fun f => decide (0 < Flow.size f.data)) ws true co := by
  by_cases hne : maps.filter (fun f => decide (0 < Flow.size f.data)) = []
  · rw [hne]
    by_cases hm : maps = []
    · rw [hm]
    · unfold averageFlowData
      rw [getSpacing_ok maps sp hm hs]
      simp only [bind, Except.bind, Bool.not_true, Bool.false_or, hne]
      rfl
  · have hm : maps ≠ [] := by rintro rfl; exact hne rfl
    unfold averageFlowData
    rw [getSpacing_ok maps sp hm hs, getSpacing_ok _ sp hne (fun f hf => hs f (List.mem_filter.mp hf).1)]
    simp only [bind, Except.bind, Bool.not_true, Bool.false_or, List.filter_filter, Bool.and_self]

/-- **C23.** With `exclude_empty_sets=False` an empty map makes the average fail instead of counting as zeros: no
input with an empty map has an average. -/
theorem C23_included_counterexample (huge : ℚ) (maps : List Flow) (ws : List (Label × Label)) (co : Label × Label)
    (f : Flow) (hf : f ∈ maps) (hw : Wf f.data) (he : Flow.size f.data = 0) :
    ∀ out, averageFlowData huge maps ws false co ≠ .ok out := by
  intro out h
  unfold averageFlowData at h
  cases hsp : getSpacing maps with
  | error e => simp [hsp, bind, Except.bind] at h
  | ok sp =>
    simp only [hsp, bind, Except.bind, Bool.not_false, Bool.true_or, List.filter_true] at h
    cases hg : getCombinedGrid (maps.map (·.data)) sp co with
    | error e => simp [hg] at h
    | ok g =>
      simp only [hg] at h
      cases hog : maps.mapM (fun f => transferData g f.data f.info.shape sp co) with
      | error e => simp [hog] at h
      | ok og =>
        have hnot : ∀ r, transferData g f.data f.info.shape sp co ≠ .ok r := by
          intro r hr
          unfold transferData at hr
          cases h1 : field g.data co.1 with
          | error e => simp [h1, bind, Except.bind] at hr
          | ok c1 =>
            cases h2 : npMin c1 with
            | error e => simp [h1, h2, bind, Except.bind] at hr
            | ok m1 =>
              cases h3 : field g.data co.2 with
              | error e => simp [h1, h2, h3, bind, Except.bind] at hr
              | ok c2 =>
                cases h4 : npMin c2 with
                | error e => simp [h1, h2, h3, h4, bind, Except.bind] at hr
                | ok m2 =>
                  cases h5 : field f.data co.1 with
                  | error e => simp [h1, h2, h3, h4, h5, bind, Except.bind] at hr
                  | ok c3 =>
                    have hc3 : c3 = [] := by
                      unfold field at h5
                      cases hc : col? f.data co.1 with
                      | none => rw [hc] at h5; simp at h5
                      | some c =>
                        rw [hc] at h5
                        have hl := col?_length hw hc
                        rw [he] at hl
                        rw [← Except.ok.inj h5]
                        exact List.length_eq_zero_iff.mp hl
                    have hmin : npMin c3 = .error .valueError := by rw [hc3]; rfl
                    simp [h1, h2, h3, h4, h5, hmin, bind, Except.bind] at hr
        have hcontra : ∀ (l : List Flow) (og : List Record), f ∈ l →
            l.mapM (fun f => transferData g f.data f.info.shape sp co) ≠ .ok og := by
          intro l
          induction l with
          | nil => intro og h; simp at h
          | cons a l ih =>
            intro og hmem hmap
            rw [List.mapM_cons] at hmap
            cases ha : transferData g a.data a.info.shape sp co with
            | error e => simp [ha, bind, Except.bind] at hmap
            | ok r =>
              rcases List.mem_cons.mp hmem with rfl | hmem
              · exact hnot r ha
              · cases hl : l.mapM (fun f => transferData g f.data f.info.shape sp co) with
                | error e => simp [ha, hl, bind, Except.bind] at hmap
                | ok og' => exact ih og' hmem hl
        exact hcontra maps og hf hog

/-- An empty map with shape and spacing set. -/
def exEmpty : Flow := ⟨[("X", []), ("Y", []), ("M", []), ("U", [])], { shape := some (0, 0), spacing := some (1, 2) }⟩

example : averageFlowData 999 [exA, exEmpty, exB] [] true = averageFlowData 999 [exA, exB] [] ∧
    averageFlowData 999 [exA, exEmpty, exB] [] = .error .valueError := by decide +kernel

end Strata.Average
