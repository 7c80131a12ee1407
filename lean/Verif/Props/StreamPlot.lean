import Verif.Spec.StreamPlot
import Verif.Props.Streamlines
import Verif.Proofs.FloatGrid
import Mathlib.Data.List.ReduceOption
/-!
# C159: drawing streamlines in double precision
-/
namespace Strata.StreamPlot
open Strata Strata.Flow Strata.Average Strata.Sample Strata.View Strata.FloatAverage

theorem NearGrid.lt {p : ℕ → ℚ} {o d : ℚ} {n : ℕ} (h : NearGrid p o d n) {i j : ℕ} (hj : j < n) (hij : i < j) : p i < p j := by
  obtain ⟨hd, h⟩ := h
  have h1 := abs_le.mp (h i (by omega))
  have h2 := abs_le.mp (h j hj)
  have h3 : (i : ℚ) + 1 ≤ j := by exact_mod_cast hij
  have h4 : d * (i : ℚ) + d ≤ d * j := by nlinarith
  linarith

theorem NearGrid.le {p : ℕ → ℚ} {o d : ℚ} {n : ℕ} (h : NearGrid p o d n) {i j : ℕ} (hj : j < n) (hij : i ≤ j) : p i ≤ p j := by
  rcases hij.lt_or_eq with hij | rfl
  · exact (h.lt hj hij).le
  · exact le_rfl

theorem NearGrid.quotient {u : ℚ} (hu : 0 ≤ u) {fl : ℚ → ℚ} (hfl : Rounds u fl) {p : ℕ → ℚ} {o d : ℚ} {n : ℕ} (h : NearGrid p o d n) (hn : 0 < n) (hun : 16 * u * n ≤ 1) :
    quotient fl (p (n - 1) - p 0) d = if fl (fl (p (n - 1) - p 0) / d) < (n : ℚ) - 1 then (n : ℤ) - 2 else (n : ℤ) - 1 := by
  have hn1 : (1 : ℚ) ≤ n := by exact_mod_cast hn
  have hu1 : u ≤ 1 := by nlinarith
  rcases Nat.lt_or_ge n 2 with h2 | h2
  · have : n = 1 := by omega
    subst this
    have hz : fl 0 = 0 := by simpa using hfl 0
    simp [StreamPlot.quotient, hz, Flow.pyInt]
  · obtain ⟨hd, hp⟩ := h
    have h1 := abs_le.mp (hp (n - 1) (by omega))
    have h0 := abs_le.mp (hp 0 hn)
    have hcast : ((n - 1 : ℕ) : ℚ) = (n : ℚ) - 1 := by rw [Nat.cast_sub (by omega)]; simp
    rw [hcast] at h1
    simp only [Nat.cast_zero, mul_zero, add_zero] at h0
    have hn2 : (2 : ℚ) ≤ n := by exact_mod_cast h2
    set D := p (n - 1) - p 0 with hD
    have e1 : |D / d - ((n : ℚ) - 1)| ≤ 1 / 4 := by
      have : D / d - ((n : ℚ) - 1) = (D - ((n : ℚ) - 1) * d) / d := by field_simp
      rw [this, abs_div, abs_of_pos hd, div_le_iff₀ hd, abs_le, hD]
      constructor <;> nlinarith
    have e2 := FloatGrid.quotient_near hu hu1 hfl D d
    have e3 : |D / d| ≤ n := by
      have e1' := abs_le.mp e1
      rw [abs_le]
      constructor <;> linarith
    have e4 : 3 * u * |D / d| ≤ 3 * u * n := mul_le_mul_of_nonneg_left e3 (by positivity)
    have e5 : |fl (fl D / d) - ((n : ℚ) - 1)| < 1 / 2 := by
      have : fl (fl D / d) - ((n : ℚ) - 1) = (fl (fl D / d) - D / d) + (D / d - ((n : ℚ) - 1)) := by ring
      rw [this]
      refine lt_of_le_of_lt (abs_add_le _ _) ?_
      nlinarith
    have e6 := abs_lt.mp e5
    unfold StreamPlot.quotient
    generalize fl (fl D / d) = q at e6 ⊢
    have hq : 0 ≤ q := by linarith
    unfold Flow.pyInt
    rw [if_pos hq]
    split_ifs with hc
    · rw [Int.floor_eq_iff]
      push_cast
      exact ⟨by linarith, by linarith⟩
    · rw [Int.floor_eq_iff]
      push_cast
      exact ⟨by linarith, by linarith⟩

theorem Stored.rows {r : Record} {px py : ℕ → ℚ} {nx ny : ℕ} (h : Stored r px py nx ny) : rowsInside r (none, none) (none, none) = List.range (nx * ny) := by
  unfold rowsInside
  rw [h.size, List.filter_eq_self]
  intro t _
  simp [Within]

theorem Stored.memX {r : Record} {px py : ℕ → ℚ} {nx ny : ℕ} (h : Stored r px py nx ny) (v : ℚ) :
    v ∈ (List.range (nx * ny)).map (val r "X") ↔ ∃ i, i < nx ∧ v = px i := by
  rw [List.mem_map]
  constructor
  · rintro ⟨t, ht, rfl⟩
    rw [List.mem_range, Nat.mul_comm] at ht
    obtain ⟨g1, g2, g3⟩ := grid_decomp ht
    exact ⟨t / ny, g2, by rw [g3, h.x _ _ g2 g1, ← g3]⟩
  · rintro ⟨i, hi, rfl⟩
    exact ⟨i * ny + 0, by rw [List.mem_range, Nat.mul_comm nx ny]; exact grid_lt h.nypos hi, h.x _ _ hi h.nypos⟩

theorem Stored.memY {r : Record} {px py : ℕ → ℚ} {nx ny : ℕ} (h : Stored r px py nx ny) (v : ℚ) :
    v ∈ (List.range (nx * ny)).map (val r "Y") ↔ ∃ j, j < ny ∧ v = py j := by
  rw [List.mem_map]
  constructor
  · rintro ⟨t, ht, rfl⟩
    rw [List.mem_range, Nat.mul_comm] at ht
    obtain ⟨g1, g2, g3⟩ := grid_decomp ht
    exact ⟨t % ny, g1, by rw [g3, h.y _ _ g2 g1, ← g3]⟩
  · rintro ⟨j, hj, rfl⟩
    exact ⟨0 * ny + j, by rw [List.mem_range, Nat.mul_comm nx ny]; exact grid_lt hj h.nxpos, h.y _ _ h.nxpos hj⟩

theorem NearGrid.extent {p : ℕ → ℚ} {o d : ℚ} {n : ℕ} (h : NearGrid p o d n) (hn : 0 < n) {l : List ℚ} (hl : ∀ v, v ∈ l ↔ ∃ i, i < n ∧ v = p i) :
    npMin l = .ok (p 0) ∧ npMax l = .ok (p (n - 1)) := by
  constructor
  · rw [npMin_ok_iff]
    refine ⟨(hl _).mpr ⟨0, hn, rfl⟩, fun v hv => ?_⟩
    obtain ⟨i, hi, rfl⟩ := (hl v).mp hv
    exact h.le hi (Nat.zero_le _)
  · rw [npMax_ok_iff]
    refine ⟨(hl _).mpr ⟨n - 1, by omega, rfl⟩, fun v hv => ?_⟩
    obtain ⟨i, hi, rfl⟩ := (hl v).mp hv
    exact h.le (by omega) (by omega)

theorem reshape_stored (nx ny : ℕ) (F : ℕ → ℚ) : reshapeT nx ny ((List.range (nx * ny)).map F) =
    (List.range ny).map fun j : ℕ => (List.range nx).map fun i : ℕ => F (i * ny + j) := by
  unfold reshapeT
  refine List.map_congr_left fun j hj => List.map_congr_left fun i hi => ?_
  rw [List.mem_range] at hi hj
  rw [getD_map_range _ _ _ (by rw [Nat.mul_comm nx ny]; exact grid_lt hj hi)]

theorem positions_of (fl : ℚ → ℚ) (a d : ℚ) (n : ℕ) (hn : 0 < n) :
    positions fl d ((List.range n).map fun i : ℕ => a + (i : ℚ) * d) = (List.range n).map fun i : ℕ => fl (fl ((i : ℚ) * d) + a) := by
  obtain ⟨m, rfl⟩ : ∃ m, n = m + 1 := ⟨n - 1, by omega⟩
  have : ((List.range (m + 1)).map fun i : ℕ => a + (i : ℚ) * d).headD 0 = a := by
    rw [List.range_succ_eq_map]; simp
  unfold positions
  rw [this, List.length_map, List.length_range]
  rfl

/-- **C159, exactly when streamlines are drawn.** Take a map whose bins are stored column by column at positions within an eighth of a bin
of a grid of spacing `sp`, all bins above the cutoff, no limits, in floating point arithmetic with relative errors of at most `u` (2⁻⁵³ for doubles), and at
most `1 / 16 u` bins per direction.  Streamlines are drawn if and only if along x *and* along y the rounded quotient of the extent and the
spacing is *less* than the number of bins less one — that is, only if both happen to be rounded down.  Then every bin is drawn in its place;
otherwise the run ends with `ValueError`. -/
theorem C159_drawn_iff (u : ℚ) (hu : 0 ≤ u) (fl : ℚ → ℚ) (hfl : Rounds u fl) (f : Flow) (sp : ℚ × ℚ) (hsp : f.info.spacing = some sp) (px py : ℕ → ℚ) (nx ny : ℕ)
    (h : Stored f.data px py nx ny) (x0 y0 : ℚ) (gx : NearGrid px x0 sp.1 nx) (gy : NearGrid py y0 sp.2 ny) (hnx : 16 * u * nx ≤ 1) (hny : 16 * u * ny ≤ 1)
    (colour cl : Label) (cutoff : ℚ) (hu' : "U" ∈ names f.data) (hv : "V" ∈ names f.data) (hm : "M" ∈ names f.data) (hcol : colour ∈ names f.data) (hcl : cl ∈ names f.data)
    (hshown : ∀ t, t < Flow.size f.data → cutoff ≤ val f.data cl t) :
    streamData fl f ("X", "Y") colour (cl, some cutoff) (none, none) (none, none) =
      if fl (fl (px (nx - 1) - px 0) / sp.1) < (nx : ℚ) - 1 ∧ fl (fl (py (ny - 1) - py 0) / sp.2) < (ny : ℚ) - 1 then
        .ok ⟨(List.range nx).map fun i : ℕ => fl (fl ((i : ℚ) * sp.1) + px 0), (List.range ny).map fun j : ℕ => fl (fl ((j : ℚ) * sp.2) + py 0),
          (List.range ny).map fun j : ℕ => (List.range nx).map fun i : ℕ => val f.data "U" (i * ny + j),
          (List.range ny).map fun j : ℕ => (List.range nx).map fun i : ℕ => val f.data "V" (i * ny + j),
          (List.range ny).map fun j : ℕ => (List.range nx).map fun i : ℕ => val f.data colour (i * ny + j),
          (List.range ny).map fun j : ℕ => (List.range nx).map fun i : ℕ => val f.data "M" (i * ny + j)⟩
      else .error .valueError := by
  have hx0 := h.nxpos
  have hy0 := h.nypos
  obtain ⟨e1, e2⟩ := gx.extent hx0 (l := (rowsInside f.data (none, none) (none, none)).map (val f.data "X")) (by rw [h.rows]; exact h.memX)
  obtain ⟨e3, e4⟩ := gy.extent hy0 (l := (rowsInside f.data (none, none) (none, none)).map (val f.data "Y")) (by rw [h.rows]; exact h.memY)
  have e := streamlines_eq (quotient fl) f h.wf sp hsp colour cl cutoff (none, none) (none, none) h.hasX h.hasY hu' hv hm hcol hcl hshown
    (by simp [NotZero]) (by simp [NotZero]) _ _ _ _ e1 e2 e3 e4
  rw [gx.quotient hu hfl hx0 hnx, gy.quotient hu hfl hy0 hny, h.rows, List.length_range] at e
  unfold streamData
  have h1 : (0 : ℤ) < nx := by exact_mod_cast hx0
  have h2 : (0 : ℤ) < ny := by exact_mod_cast hy0
  by_cases hqx : fl (fl (px (nx - 1) - px 0) / sp.1) < (nx : ℚ) - 1
  · by_cases hqy : fl (fl (py (ny - 1) - py 0) / sp.2) < (ny : ℚ) - 1
    · rw [if_pos hqx, if_pos hqy, show (nx : ℤ) - 2 + 2 = nx by ring, show (ny : ℤ) - 2 + 2 = ny by ring, if_neg (by push_cast; omega)] at e
      rw [e, if_pos ⟨hqx, hqy⟩, Gmx.ok_bind, hsp]
      simp only [Int.toNat_natCast, reshape_stored, Option.getD_some, positions_of fl _ _ _ hx0, positions_of fl _ _ _ hy0]
    · rw [if_pos hqx, if_neg hqy, if_pos] at e
      · rw [e, if_neg (fun h => hqy h.2)]
        rfl
      · right; right
        push_cast
        intro hc
        have : ((nx : ℤ) - 2 + 2) * ((ny : ℤ) - 1 + 2) = nx * ny + nx := by ring
        omega
  · have e' : View.streamlines (quotient fl) f ("X", "Y") colour (cl, some cutoff) (none, none) (none, none) = .error .valueError := by
      rw [e, if_neg hqx]
      refine if_pos (Or.inr (Or.inr ?_))
      push_cast
      split_ifs
      · intro hc
        have : ((nx : ℤ) - 1 + 2) * ((ny : ℤ) - 2 + 2) = nx * ny + ny := by ring
        omega
      · intro hc
        have : ((nx : ℤ) - 1 + 2) * ((ny : ℤ) - 1 + 2) = nx * ny + nx + ny + 1 := by ring
        omega
    rw [e', if_neg (fun h => hqx h.1)]
    rfl

/-- **C159, counterexample.** If differences and quotients that can be represented are not rounded away — positions `x0 + i dx` stored exactly — no map
is ever drawn: for any rounding that keeps the extent along one axis and the number of bins along it, `ValueError`. -/
theorem C159_exact_counterexample (u : ℚ) (hu : 0 ≤ u) (fl : ℚ → ℚ) (hfl : Rounds u fl) (f : Flow) (sp : ℚ × ℚ) (hsp : f.info.spacing = some sp) (px py : ℕ → ℚ) (nx ny : ℕ)
    (h : Stored f.data px py nx ny) (x0 y0 : ℚ) (gx : NearGrid px x0 sp.1 nx) (gy : NearGrid py y0 sp.2 ny) (hnx : 16 * u * nx ≤ 1) (hny : 16 * u * ny ≤ 1)
    (colour cl : Label) (cutoff : ℚ) (hu' : "U" ∈ names f.data) (hv : "V" ∈ names f.data) (hm : "M" ∈ names f.data) (hcol : colour ∈ names f.data) (hcl : cl ∈ names f.data)
    (hshown : ∀ t, t < Flow.size f.data → cutoff ≤ val f.data cl t)
    (hex : (px (nx - 1) - px 0 = sp.1 * ((nx : ℚ) - 1) ∧ fl (sp.1 * ((nx : ℚ) - 1)) = sp.1 * ((nx : ℚ) - 1) ∧ fl ((nx : ℚ) - 1) = (nx : ℚ) - 1) ∨
      (py (ny - 1) - py 0 = sp.2 * ((ny : ℚ) - 1) ∧ fl (sp.2 * ((ny : ℚ) - 1)) = sp.2 * ((ny : ℚ) - 1) ∧ fl ((ny : ℚ) - 1) = (ny : ℚ) - 1)) :
    streamData fl f ("X", "Y") colour (cl, some cutoff) (none, none) (none, none) = .error .valueError := by
  rw [C159_drawn_iff u hu fl hfl f sp hsp px py nx ny h x0 y0 gx gy hnx hny colour cl cutoff hu' hv hm hcol hcl hshown, if_neg]
  rintro ⟨h1, h2⟩
  rcases hex with ⟨a, b, c⟩ | ⟨a, b, c⟩
  · rw [a, b, mul_div_cancel_left₀ _ gx.1.ne', c] at h1
    exact lt_irrefl _ h1
  · rw [a, b, mul_div_cancel_left₀ _ gy.1.ne', c] at h2
    exact lt_irrefl _ h2

/-- **C159, density.** The density along each direction is that of whole groups of 30 bins.  If the map has 30 bins or more in both directions, streamlines may start in
as many cells per direction as there are bins, or up to 29 less; with fewer than 30 bins in either direction there is no cell to start in, and nothing is drawn. -/
theorem C159_density (nx ny : ℕ) (ws : List (List (Option ℚ))) :
    (30 ≤ nx → 30 ≤ ny → 0 < cells (plot (ny, nx) ws) ∧ 30 * (plot (ny, nx) ws).density.1 ≤ nx ∧ nx < 30 * (plot (ny, nx) ws).density.1 + 30 ∧
      30 * (plot (ny, nx) ws).density.2 ≤ ny ∧ ny < 30 * (plot (ny, nx) ws).density.2 + 30) ∧
    (nx < 30 ∨ ny < 30 → cells (plot (ny, nx) ws) = 0) := by
  unfold cells plot
  simp only
  constructor
  · intro h1 h2
    refine ⟨Nat.mul_pos ?_ ?_, ?_, ?_, ?_, ?_⟩ <;> omega
  · rintro (h | h)
    · rw [Nat.div_eq_of_lt h]; simp
    · rw [Nat.div_eq_of_lt h]; simp

/-- **C159, line widths.** If some bin is not masked and the largest mass among these is positive, every bin gets the width `3/2 · mass / largest mass`, bins that are
masked get none, no line is wider than 3/2, and the heaviest bin has exactly this width. -/
theorem C159_widths (shape : ℕ × ℕ) (ws : List (List (Option ℚ))) (m : ℚ) (hm : some m ∈ ws.flatten) (hmax : ∀ w, some w ∈ ws.flatten → w ≤ m) (hpos : 0 < m) :
    (plot shape ws).widths = ws.map (fun r => r.map fun w : Option ℚ => w.map fun q : ℚ => 3 / 2 * q / m) ∧
    (∀ r ∈ (plot shape ws).widths, ∀ q, some q ∈ r → q ≤ 3 / 2) ∧ (∃ r ∈ (plot shape ws).widths, some (3 / 2) ∈ r) := by
  have hl : largest ws = some m := by
    unfold largest
    rw [List.max?_eq_some_iff]
    constructor
    · rw [List.reduceOption_mem_iff]; exact hm
    · intro b hb
      rw [List.reduceOption_mem_iff] at hb
      exact hmax b hb
  have hw : ∀ w : Option ℚ, width (some m) w = w.map fun q : ℚ => 3 / 2 * q / m := by
    intro w
    cases w with
    | none => rfl
    | some w => simp [width, hpos.ne']
  have e : (plot shape ws).widths = ws.map (fun r => r.map fun w : Option ℚ => w.map fun q : ℚ => 3 / 2 * q / m) := by
    unfold plot
    simp only [hl]
    exact List.map_congr_left fun r _ => List.map_congr_left fun w _ => hw w
  refine ⟨e, ?_, ?_⟩
  · rw [e]
    intro r hr q hq
    obtain ⟨s, hs, rfl⟩ := List.mem_map.mp hr
    obtain ⟨w, hw, hwq⟩ := List.mem_map.mp hq
    rw [Option.map_eq_some_iff] at hwq
    obtain ⟨v, rfl, rfl⟩ := hwq
    have := hmax v (List.mem_flatten.mpr ⟨s, hs, hw⟩)
    rw [div_le_iff₀ hpos]
    linarith
  · rw [e]
    obtain ⟨s, hs, hms⟩ := List.mem_flatten.mp hm
    refine ⟨_, List.mem_map.mpr ⟨s, hs, rfl⟩, List.mem_map.mpr ⟨some m, hms, ?_⟩⟩
    rw [Option.map_some, mul_div_assoc, div_self hpos.ne', mul_one]

/-- A map without mass gives no line any width. -/
theorem C159_no_mass (shape : ℕ × ℕ) (ws : List (List (Option ℚ))) (h : ∀ w, some w ∈ ws.flatten → w = 0) :
    ∀ r ∈ (plot shape ws).widths, ∀ w ∈ r, w = none := by
  intro r hr w hw
  obtain ⟨s, hs, rfl⟩ := List.mem_map.mp hr
  obtain ⟨v, hv, rfl⟩ := List.mem_map.mp hw
  have : largest ws = none ∨ largest ws = some 0 := by
    cases hl : largest ws with
    | none => exact .inl rfl
    | some m =>
      have hmem : m ∈ ws.flatten.reduceOption := List.max?_mem hl
      rw [List.reduceOption_mem_iff] at hmem
      rw [h m hmem]
      exact .inr rfl
  rcases this with e | e
  · rw [e]; cases v <;> rfl
  · rw [e]; cases v <;> simp [width]

/-! ### Examples -/

/-- The double next to 0.3. -/
def tenths (k : ℚ) : ℚ := roundBits 53 (k / 10)

/-- Columns or rows of width 0.3, the first one at 0.15, as computed in double precision. -/
def exP (i : ℕ) : ℚ := roundBits 53 (roundBits 53 ((i : ℚ) * tenths 3) + tenths (3 / 2))

/-- A map of `nx × 2` bins. -/
def exMap (nx : ℕ) : Flow :=
  ⟨[("X", (List.range (nx * 2)).map fun t : ℕ => exP (t / 2)), ("Y", (List.range (nx * 2)).map fun t : ℕ => exP (t % 2)),
    ("U", (List.range (nx * 2)).map fun t : ℕ => (t : ℚ)), ("V", (List.range (nx * 2)).map fun t : ℕ => (t : ℚ)), ("M", (List.range (nx * 2)).map fun _ => 1)],
    { spacing := some (tenths 3, tenths 3) }⟩

theorem exStored (nx : ℕ) (hn : 0 < nx) (h : nx ≤ 4) : Stored (exMap nx).data exP exP nx 2 := by
  have hx : nx = 1 ∨ nx = 2 ∨ nx = 3 ∨ nx = 4 := by omega
  rcases hx with rfl | rfl | rfl | rfl
  all_goals
    refine ⟨⟨by decide, by decide +kernel⟩, by decide, by decide, rfl, by decide, by decide, ?_, ?_⟩
  · have : ∀ i : ℕ, i < 1 → ∀ j : ℕ, j < 2 → val (exMap 1).data "X" (i * 2 + j) = exP i := by decide +kernel
    exact fun i j hi hj => this i hi j hj
  · have : ∀ i : ℕ, i < 1 → ∀ j : ℕ, j < 2 → val (exMap 1).data "Y" (i * 2 + j) = exP j := by decide +kernel
    exact fun i j hi hj => this i hi j hj
  · have : ∀ i : ℕ, i < 2 → ∀ j : ℕ, j < 2 → val (exMap 2).data "X" (i * 2 + j) = exP i := by decide +kernel
    exact fun i j hi hj => this i hi j hj
  · have : ∀ i : ℕ, i < 2 → ∀ j : ℕ, j < 2 → val (exMap 2).data "Y" (i * 2 + j) = exP j := by decide +kernel
    exact fun i j hi hj => this i hi j hj
  · have : ∀ i : ℕ, i < 3 → ∀ j : ℕ, j < 2 → val (exMap 3).data "X" (i * 2 + j) = exP i := by decide +kernel
    exact fun i j hi hj => this i hi j hj
  · have : ∀ i : ℕ, i < 3 → ∀ j : ℕ, j < 2 → val (exMap 3).data "Y" (i * 2 + j) = exP j := by decide +kernel
    exact fun i j hi hj => this i hi j hj
  · have : ∀ i : ℕ, i < 4 → ∀ j : ℕ, j < 2 → val (exMap 4).data "X" (i * 2 + j) = exP i := by decide +kernel
    exact fun i j hi hj => this i hi j hj
  · have : ∀ i : ℕ, i < 4 → ∀ j : ℕ, j < 2 → val (exMap 4).data "Y" (i * 2 + j) = exP j := by decide +kernel
    exact fun i j hi hj => this i hi j hj

example : NearGrid exP (tenths (3 / 2)) (tenths 3) 4 := by
  refine ⟨by decide +kernel, ?_⟩
  have : ∀ i : ℕ, i < 4 → |exP i - (tenths (3 / 2) + tenths 3 * (i : ℚ))| ≤ tenths 3 / 8 := by decide +kernel
  exact this

/-- **C159, whether a map can be drawn depends on the rounding of its positions.** In double precision, with bins of width 0.3 from 0.15: maps with two
or four columns are drawn, one with three columns is not. -/
theorem C159_depends_on_rounding :
    (streamData (roundBits 53) (exMap 2) ("X", "Y") "U" ("M", some 1) (none, none) (none, none)).isOk = true ∧
    streamData (roundBits 53) (exMap 3) ("X", "Y") "U" ("M", some 1) (none, none) (none, none) = .error .valueError ∧
    (streamData (roundBits 53) (exMap 4) ("X", "Y") "U" ("M", some 1) (none, none) (none, none)).isOk = true := by
  refine ⟨?_, ?_, ?_⟩ <;> decide +kernel

example : ∀ i : ℕ, i < 2 → (plot (2, 2) [[some 1, none], [some 4, some 2]]).widths = [[some (3 / 8), none], [some (3 / 2), some (3 / 4)]] := by decide +kernel

example : (plot (29, 60) []).density = (2, 0) ∧ (plot (31, 60) []).density = (2, 1) := by decide

end Strata.StreamPlot
