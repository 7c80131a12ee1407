import Verif.Props.Average
import Verif.Spec.FieldUnits
/-!
# C155: averages do not depend on the units
-/
namespace Strata.Average
open Strata Strata.Flow

variable {u : FieldUnits}

theorem lookup_fields (d : Record) (l : Label) : (d.map fun c => (c.1, c.2.map (u.value c.1))).lookup l = (d.lookup l).map fun c => c.map (u.value l) := by
  induction d with
  | nil => rfl
  | cons c d ih =>
    rw [List.map_cons, List.lookup_cons, List.lookup_cons]
    by_cases hl : l = c.1
    · subst hl; simp
    · have : (l == c.1) = false := by simpa using hl
      simp only [this]
      exact ih

theorem names_fields (f : Flow) : names (u.flow f).data = names f.data := by
  unfold FieldUnits.flow names
  simp only [List.map_map]
  rfl

theorem size_fields (f : Flow) : Flow.size (u.flow f).data = Flow.size f.data := by
  show Flow.size (f.data.map fun c => (c.1, c.2.map (u.value c.1))) = Flow.size f.data
  cases f.data with
  | nil => rfl
  | cons c d => simp [Flow.size]

theorem wf_fields {f : Flow} (hw : Wf f.data) : Wf (u.flow f).data := by
  refine ⟨by rw [names_fields]; exact hw.1, fun c hc => ?_⟩
  rw [size_fields]
  obtain ⟨e, he, rfl⟩ := List.mem_map.mp hc
  simpa using hw.2 e he

theorem val_fields {f : Flow} (hw : Wf f.data) {l : Label} (hl : l ∈ names f.data) {t : ℕ} (ht : t < Flow.size f.data) :
    val (u.flow f).data l t = u.value l (val f.data l t) := by
  obtain ⟨c, -, hc⟩ := field_ok hl
  have hlen := col?_length hw hc
  have hc' : col? (u.flow f).data l = some (c.map (u.value l)) := by
    show (f.data.map fun c => (c.1, c.2.map (u.value c.1))).lookup l = _
    rw [lookup_fields, show f.data.lookup l = some c from hc]
    rfl
  rw [val_of_col hc', val_of_col hc]
  simp [List.getD_eq_getElem?_getD, List.getElem?_eq_getElem (show t < c.length by omega)]

theorem value_inj (h : u.Valid) (l : Label) (a b : ℚ) : u.value l a = u.value l b ↔ a = b := by
  unfold FieldUnits.value
  rw [add_left_inj, mul_right_inj' (h l).ne']

theorem value_le (h : u.Valid) (l : Label) (a b : ℚ) : u.value l a ≤ u.value l b ↔ a ≤ b := by
  unfold FieldUnits.value
  rw [add_le_add_iff_right, mul_le_mul_iff_right₀ (h l)]

theorem value_plain {l : Label} (hx : l ≠ "X") (hy : l ≠ "Y") (v : ℚ) : u.value l v = u.factor l * v := by
  simp [FieldUnits.value, hx, hy]

theorem value_add (l : Label) (a b : ℚ) : u.value l (a + b) = u.value l a + u.factor l * b := by
  unfold FieldUnits.value
  ring

theorem lattice_fields (h : u.Valid) {f : Flow} {sp : ℚ × ℚ} {x0 y0 : ℚ} {nx ny : ℕ} (hl : Lattice f.data sp x0 y0 nx ny) :
    Lattice (u.flow f).data (u.lengths sp) (u.value "X" x0) (u.value "Y" y0) nx ny where
  wf := wf_fields hl.wf
  nxpos := hl.nxpos
  nypos := hl.nypos
  size := by rw [size_fields]; exact hl.size
  hasX := by rw [names_fields]; exact hl.hasX
  hasY := by rw [names_fields]; exact hl.hasY
  x := fun t ht => by
    rw [val_fields hl.wf hl.hasX (by rw [hl.size]; exact ht), hl.x t ht, value_add, ← mul_assoc]
    rfl
  y := fun t ht => by
    rw [val_fields hl.wf hl.hasY (by rw [hl.size]; exact ht), hl.y t ht, value_add, ← mul_assoc]
    rfl

theorem gridMap_fields (h : u.Valid) {f : Flow} {sp : ℚ × ℚ} (hg : GridMap f sp) : GridMap (u.flow f) (u.lengths sp) := by
  obtain ⟨x0, y0, nx, ny, h1, h2, h3⟩ := hg
  exact ⟨_, _, nx, ny, h1, by show f.info.spacing.map u.lengths = _; rw [h2]; rfl, lattice_fields h h3⟩

theorem onLattice_fields (h : u.Valid) {f : Flow} {sp : ℚ × ℚ} {ox oy : ℚ} (hw : Wf f.data) (hx : "X" ∈ names f.data) (hy : "Y" ∈ names f.data)
    (ho : OnLattice sp ox oy f.data) : OnLattice (u.lengths sp) (u.value "X" ox) (u.value "Y" oy) (u.flow f).data := by
  intro t ht
  rw [size_fields] at ht
  obtain ⟨⟨k, hk⟩, ⟨m, hm⟩⟩ := ho t ht
  refine ⟨⟨k, ?_⟩, ⟨m, ?_⟩⟩
  · rw [val_fields hw hx ht, hk, value_add, ← mul_assoc]; rfl
  · rw [val_fields hw hy ht, hm, value_add, ← mul_assoc]; rfl

theorem valueAt_fields (h : u.Valid) {f : Flow} (hw : Wf f.data) (hx : "X" ∈ names f.data) (hy : "Y" ∈ names f.data) {l : Label} (hl : l ∈ names f.data) (h1 : l ≠ "X") (h2 : l ≠ "Y") (x y : ℚ) :
    valueAt (u.flow f).data l (u.value "X" x) (u.value "Y" y) = u.factor l * valueAt f.data l x y := by
  unfold valueAt
  rw [size_fields]
  have e : (List.range (Flow.size f.data)).find? (fun t => decide (val (u.flow f).data "X" t = u.value "X" x ∧ val (u.flow f).data "Y" t = u.value "Y" y)) =
      (List.range (Flow.size f.data)).find? (fun t => decide (val f.data "X" t = x ∧ val f.data "Y" t = y)) := by
    have : ∀ L : List ℕ, (∀ t ∈ L, t < Flow.size f.data) → L.find? (fun t => decide (val (u.flow f).data "X" t = u.value "X" x ∧ val (u.flow f).data "Y" t = u.value "Y" y)) =
        L.find? (fun t => decide (val f.data "X" t = x ∧ val f.data "Y" t = y)) := by
      intro L
      induction L with
      | nil => intro _; rfl
      | cons t L ih =>
        intro hL
        have ht := hL t List.mem_cons_self
        rw [List.find?_cons, List.find?_cons, ih fun s hs => hL s (List.mem_cons_of_mem _ hs), val_fields hw hx ht, val_fields hw hy ht]
        simp only [value_inj h]
    exact this _ fun t ht => List.mem_range.mp ht
  rw [e]
  cases hf : (List.range (Flow.size f.data)).find? (fun t => decide (val f.data "X" t = x ∧ val f.data "Y" t = y)) with
  | none => simp
  | some t =>
    have ht := List.mem_range.mp (List.mem_of_find?_eq_some hf)
    simp only [Option.elim_some]
    rw [val_fields hw hl ht, value_plain h1 h2]

theorem sum_factor (ls : List Flow) (k : ℚ) (g g' : Flow → ℚ) (h : ∀ f ∈ ls, g' (u.flow f) = k * g f) :
    ((ls.map u.flow).map g').sum = k * (ls.map g).sum := by
  induction ls with
  | nil => simp
  | cons f ls ih =>
    rw [List.map_cons, List.map_cons, List.map_cons, List.sum_cons, List.sum_cons, h f List.mem_cons_self, ih fun q hq => h q (List.mem_cons_of_mem _ hq), mul_add]

theorem sum_zero_all (L : List Flow) (g : Flow → ℚ) (hn : ∀ f ∈ L, 0 ≤ g f) (hs : (L.map g).sum = 0) : ∀ f ∈ L, g f = 0 := by
  induction L with
  | nil => intro f hf; cases hf
  | cons a L ih =>
    rw [List.map_cons, List.sum_cons] at hs
    have h1 := hn a List.mem_cons_self
    have h2 : 0 ≤ (L.map g).sum := List.sum_nonneg (by
      intro v hv
      obtain ⟨f, hf, rfl⟩ := List.mem_map.mp hv
      exact hn f (List.mem_cons_of_mem _ hf))
    intro f hf
    rcases List.mem_cons.mp hf with rfl | hf
    · linarith
    · exact ih (fun q hq => hn q (List.mem_cons_of_mem _ hq)) (by linarith) f hf

/-- Two descriptions of the extent of the same bins agree. -/
theorem extent_unique {a b d : ℚ} {m n : ℕ} (hd : 0 < d) (hm : 0 < m) (hn : 0 < n) (P : ℚ → Prop) (h1 : ∀ x, P x → a ≤ x ∧ x ≤ a + d * ((m - 1 : ℕ) : ℚ))
    (h2 : ∀ x, P x → b ≤ x ∧ x ≤ b + d * ((n - 1 : ℕ) : ℚ)) (ha : P a) (hb : P b) (ha' : P (a + d * ((m - 1 : ℕ) : ℚ))) (hb' : P (b + d * ((n - 1 : ℕ) : ℚ))) :
    a = b ∧ m = n := by
  have e : a = b := le_antisymm (h1 b hb).1 (h2 a ha).1
  subst e
  refine ⟨rfl, ?_⟩
  have e2 : d * ((m - 1 : ℕ) : ℚ) = d * ((n - 1 : ℕ) : ℚ) := le_antisymm (by linarith [(h2 _ ha').2]) (by linarith [(h1 _ hb').2])
  have e3 : ((m - 1 : ℕ) : ℚ) = ((n - 1 : ℕ) : ℚ) := mul_left_cancel₀ hd.ne' e2
  have e4 : m - 1 = n - 1 := by exact_mod_cast e3
  omega

theorem lattice_bounds {r : Record} {sp : ℚ × ℚ} {x0 y0 : ℚ} {nx ny : ℕ} (hx : 0 < sp.1) (hy : 0 < sp.2) (h : Lattice r sp x0 y0 nx ny) {t : ℕ} (ht : t < nx * ny) :
    (x0 ≤ val r "X" t ∧ val r "X" t ≤ x0 + sp.1 * ((nx - 1 : ℕ) : ℚ)) ∧ y0 ≤ val r "Y" t ∧ val r "Y" t ≤ y0 + sp.2 * ((ny - 1 : ℕ) : ℚ) := by
  rw [h.x t ht, h.y t ht]
  have a1 : t % nx ≤ nx - 1 := by have := Nat.mod_lt t h.nxpos; omega
  have a2 : t / nx ≤ ny - 1 := by have := Nat.div_lt_of_lt_mul ht; omega
  have b1 : ((t % nx : ℕ) : ℚ) ≤ ((nx - 1 : ℕ) : ℚ) := by exact_mod_cast a1
  have b2 : ((t / nx : ℕ) : ℚ) ≤ ((ny - 1 : ℕ) : ℚ) := by exact_mod_cast a2
  have c1 : (0 : ℚ) ≤ ((t % nx : ℕ) : ℚ) := Nat.cast_nonneg _
  have c2 : (0 : ℚ) ≤ ((t / nx : ℕ) : ℚ) := Nat.cast_nonneg _
  refine ⟨⟨?_, ?_⟩, ?_, ?_⟩ <;> nlinarith

/-- **C155 (partial).** Average maps that share their spacing and lie on one lattice, with weights that are not negative, and the same maps in other units: the second average is the first one in these
units, with its information. Missing: maps whose spacings differ (`C155_spacing_counterexample`). -/
theorem C155_average_partial (u : FieldUnits) (h : u.Valid) (huge : ℚ) (maps : List Flow) (ws : List (Label × Label)) (ex : Bool) (sp : ℚ × ℚ) (ox oy : ℚ) (ls : List Label) (hne : maps ≠ [])
    (hx : 0 < sp.1) (hy : 0 < sp.2) (hm : ∀ f ∈ maps, GridMap f sp ∧ OnLattice sp ox oy f.data ∧ names f.data = ls) (hnd : (ws.map Prod.fst).Nodup)
    (hws : ∀ p ∈ ws, p.1 ∈ ls ∧ p.2 ∈ ls ∧ p.1 ≠ "X" ∧ p.1 ≠ "Y" ∧ p.2 ≠ "X" ∧ p.2 ≠ "Y" ∧ ∀ q ∈ ws, q.1 ≠ p.2)
    (hpos : ∀ f ∈ maps, ∀ p ∈ ws, ∀ t, 0 ≤ val f.data p.2 t) :
    ∃ out, averageFlowData huge maps ws ex = .ok out ∧ averageFlowData huge (maps.map u.flow) ws ex = .ok (u.flow out) := by
  have hgr : ∀ f ∈ maps, Wf f.data ∧ "X" ∈ names f.data ∧ "Y" ∈ names f.data := by
    intro f hf
    obtain ⟨⟨_, _, _, _, -, -, hl⟩, -, -⟩ := hm f hf
    exact ⟨hl.wf, hl.hasX, hl.hasY⟩
  obtain ⟨out, x0, y0, nx, ny, h1, h2, h3, h4, h5, h6, h7, h8, h9, h10, h11⟩ := averageFlow_spec huge maps ws ex sp ox oy ls hne hx hy hm hnd hws
  have hx' : 0 < (u.lengths sp).1 := mul_pos (h _) hx
  have hy' : 0 < (u.lengths sp).2 := mul_pos (h _) hy
  obtain ⟨out', x0', y0', nx', ny', h1', h2', h3', h4', h5', h6', h7', h8', h9', h10', h11'⟩ := averageFlow_spec huge (maps.map u.flow) ws ex (u.lengths sp) (u.value "X" ox) (u.value "Y" oy) ls
    (by simpa using hne) hx' hy' (by
      intro f' hf'
      obtain ⟨f, hf, rfl⟩ := List.mem_map.mp hf'
      obtain ⟨a1, a2, a3⟩ := hm f hf
      obtain ⟨b1, b2, b3⟩ := hgr f hf
      exact ⟨gridMap_fields h a1, onLattice_fields h b1 b2 b3 a2, by rw [names_fields]; exact a3⟩) hnd hws
  refine ⟨out, h1, ?_⟩
  rw [h1']
  have hL := lattice_fields h h2
  have hout : ls = names out.data := h3.symm
  -- the same extent
  obtain ⟨ex1, ex2⟩ := extent_unique (a := u.value "X" x0) (b := x0') (m := nx) (n := nx') hx' h2.nxpos h2'.nxpos
    (fun x => ∃ f ∈ maps, ∃ s, s < Flow.size f.data ∧ x = u.value "X" (val f.data "X" s))
    (by
      rintro x ⟨f, hf, s, hs, rfl⟩
      obtain ⟨t, ht, e1, -⟩ := h5 f hf s hs
      have hb := (lattice_bounds hx' hy' hL ht).1
      rw [val_fields h2.wf h2.hasX (by rw [h2.size]; exact ht), ← e1] at hb
      exact hb)
    (by
      rintro x ⟨f, hf, s, hs, rfl⟩
      obtain ⟨t, ht, e1, -⟩ := h5' (u.flow f) (List.mem_map_of_mem hf) s (by rw [size_fields]; exact hs)
      have hb := (lattice_bounds hx' hy' h2' ht).1
      rw [← e1, val_fields (hgr f hf).1 (hgr f hf).2.1 hs] at hb
      exact hb)
    (by
      obtain ⟨f, hf, s, hs, e⟩ := h6
      exact ⟨f, hf, s, hs, by rw [e]⟩)
    (by
      obtain ⟨f', hf', s, hs, e⟩ := h6'
      obtain ⟨f, hf, rfl⟩ := List.mem_map.mp hf'
      rw [size_fields] at hs
      exact ⟨f, hf, s, hs, by rw [← e, val_fields (hgr f hf).1 (hgr f hf).2.1 hs]⟩)
    (by
      obtain ⟨f, hf, s, hs, e⟩ := h8
      exact ⟨f, hf, s, hs, by rw [e, value_add, ← mul_assoc]; rfl⟩)
    (by
      obtain ⟨f', hf', s, hs, e⟩ := h8'
      obtain ⟨f, hf, rfl⟩ := List.mem_map.mp hf'
      rw [size_fields] at hs
      exact ⟨f, hf, s, hs, by rw [← e, val_fields (hgr f hf).1 (hgr f hf).2.1 hs]⟩)
  obtain ⟨ey1, ey2⟩ := extent_unique (a := u.value "Y" y0) (b := y0') (m := ny) (n := ny') hy' h2.nypos h2'.nypos
    (fun x => ∃ f ∈ maps, ∃ s, s < Flow.size f.data ∧ x = u.value "Y" (val f.data "Y" s))
    (by
      rintro x ⟨f, hf, s, hs, rfl⟩
      obtain ⟨t, ht, -, e1⟩ := h5 f hf s hs
      have hb := (lattice_bounds hx' hy' hL ht).2
      rw [val_fields h2.wf h2.hasY (by rw [h2.size]; exact ht), ← e1] at hb
      exact hb)
    (by
      rintro x ⟨f, hf, s, hs, rfl⟩
      obtain ⟨t, ht, -, e1⟩ := h5' (u.flow f) (List.mem_map_of_mem hf) s (by rw [size_fields]; exact hs)
      have hb := (lattice_bounds hx' hy' h2' ht).2
      rw [← e1, val_fields (hgr f hf).1 (hgr f hf).2.2 hs] at hb
      exact hb)
    (by
      obtain ⟨f, hf, s, hs, e⟩ := h7
      exact ⟨f, hf, s, hs, by rw [e]⟩)
    (by
      obtain ⟨f', hf', s, hs, e⟩ := h7'
      obtain ⟨f, hf, rfl⟩ := List.mem_map.mp hf'
      rw [size_fields] at hs
      exact ⟨f, hf, s, hs, by rw [← e, val_fields (hgr f hf).1 (hgr f hf).2.2 hs]⟩)
    (by
      obtain ⟨f, hf, s, hs, e⟩ := h9
      exact ⟨f, hf, s, hs, by rw [e, value_add, ← mul_assoc]; rfl⟩)
    (by
      obtain ⟨f', hf', s, hs, e⟩ := h9'
      obtain ⟨f, hf, rfl⟩ := List.mem_map.mp hf'
      rw [size_fields] at hs
      exact ⟨f, hf, s, hs, by rw [← e, val_fields (hgr f hf).1 (hgr f hf).2.2 hs]⟩)
  subst ex1 ex2 ey1 ey2
  have hinfo : out'.info = (u.flow out).info := by
    rw [h4']
    show _ = ({ out.info with origin := _, spacing := _ } : Info)
    rw [h4]
    rfl
  have hdata : out'.data = (u.flow out).data := by
    apply record_ext_val h2'.wf (wf_fields h2.wf) (by rw [h3', names_fields, h3]) (by rw [h2'.size, size_fields, h2.size])
    intro l hl t ht
    rw [h2'.size] at ht
    have hto : t < Flow.size out.data := by rw [h2.size]; exact ht
    rw [h3', hout] at hl
    have pX : val out'.data "X" t = u.value "X" (val out.data "X" t) := by
      rw [h2'.x t ht, ← hL.x t ht, val_fields h2.wf h2.hasX hto]
    have pY : val out'.data "Y" t = u.value "Y" (val out.data "Y" t) := by
      rw [h2'.y t ht, ← hL.y t ht, val_fields h2.wf h2.hasY hto]
    rw [val_fields h2.wf hl hto]
    by_cases lX : l = "X"
    · subst lX; exact pX
    by_cases lY : l = "Y"
    · subst lY; exact pY
    rw [value_plain lX lY]
    have hat : ∀ k ∈ ls, k ≠ "X" → k ≠ "Y" → ∀ f ∈ maps, valueAt (u.flow f).data k (val out'.data "X" t) (val out'.data "Y" t) =
        u.factor k * valueAt f.data k (val out.data "X" t) (val out.data "Y" t) := by
      intro k hk k1 k2 f hf
      rw [pX, pY]
      exact valueAt_fields h (hgr f hf).1 (hgr f hf).2.1 (hgr f hf).2.2 (by rw [(hm f hf).2.2]; exact hk) k1 k2 _ _
    by_cases hwl : ∃ p ∈ ws, p.1 = l
    · obtain ⟨p, hp, rfl⟩ := hwl
      obtain ⟨w1, w2, w3, w4, w5, w6, -⟩ := hws p hp
      rw [h11' p hp t ht, h11 p hp t ht]
      rw [sum_factor maps (u.factor p.1 * u.factor p.2) (fun f => valueAt f.data p.1 (val out.data "X" t) (val out.data "Y" t) * valueAt f.data p.2 (val out.data "X" t) (val out.data "Y" t))
          (fun f => valueAt f.data p.1 (val out'.data "X" t) (val out'.data "Y" t) * valueAt f.data p.2 (val out'.data "X" t) (val out'.data "Y" t))
          (fun f hf => by rw [hat p.1 w1 w3 w4 f hf, hat p.2 w2 w5 w6 f hf]; ring),
        sum_factor maps (u.factor p.2) (fun f => valueAt f.data p.2 (val out.data "X" t) (val out.data "Y" t))
          (fun f => valueAt f.data p.2 (val out'.data "X" t) (val out'.data "Y" t)) (fun f hf => hat p.2 w2 w5 w6 f hf)]
      have hnn : ∀ f ∈ maps, 0 ≤ valueAt f.data p.2 (val out.data "X" t) (val out.data "Y" t) := by
        intro f hf
        unfold valueAt
        cases (List.range (Flow.size f.data)).find? (fun s => decide (val f.data "X" s = val out.data "X" t ∧ val f.data "Y" s = val out.data "Y" t)) with
        | none => exact le_rfl
        | some s => exact hpos f hf p hp s
      unfold divNan
      by_cases hs : (maps.map fun f => valueAt f.data p.2 (val out.data "X" t) (val out.data "Y" t)).sum = 0
      · have hz : ∀ f ∈ maps, valueAt f.data p.2 (val out.data "X" t) (val out.data "Y" t) = 0 := by
          exact fun f hf => sum_zero_all maps _ hnn hs f hf
        have hn : (maps.map fun f => valueAt f.data p.1 (val out.data "X" t) (val out.data "Y" t) * valueAt f.data p.2 (val out.data "X" t) (val out.data "Y" t)).sum = 0 := by
          apply List.sum_eq_zero
          intro v hv
          obtain ⟨f, hf, rfl⟩ := List.mem_map.mp hv
          rw [hz f hf, mul_zero]
        rw [hs, hn]
        simp
      · rw [if_neg hs, if_neg (mul_ne_zero (h _).ne' hs), mul_assoc, mul_left_comm, mul_div_mul_left _ _ (h p.2).ne', mul_div_assoc]
    · have hnw : ∀ p ∈ ws, p.1 ≠ l := fun p hp e => hwl ⟨p, hp, e⟩
      rw [h10' l (hout ▸ hl) lX lY hnw t ht, h10 l (hout ▸ hl) lX lY hnw t ht]
      rw [sum_factor maps (u.factor l) (fun f => valueAt f.data l (val out.data "X" t) (val out.data "Y" t))
          (fun f => valueAt f.data l (val out'.data "X" t) (val out'.data "Y" t)) (fun f hf => hat l (hout ▸ hl) lX lY f hf), List.length_map, mul_div_assoc]
  congr 1
  cases out'
  simp only at hinfo hdata
  rw [hinfo, hdata]

/-! ### Cases -/

/-- Metres instead of nanometres, the flow in other units as well. -/
def metres : FieldUnits := { factor := fun l => if l = "X" ∨ l = "Y" then 1 / 1000000000 else if l = "U" then 1000 else 2, x0 := 1 / 10 }

theorem metres_valid : metres.Valid := by
  intro l
  unfold metres
  simp only
  split_ifs <;> norm_num

/-- The maps of the example of C22, weighted. -/
example : ∃ out, averageFlowData 999 [exA, exB] [("U", "M")] true = .ok out ∧ averageFlowData 999 ([exA, exB].map metres.flow) [("U", "M")] true = .ok (metres.flow out) := by
  refine C155_average_partial metres metres_valid 999 [exA, exB] [("U", "M")] true (1, 2) 1 3 _ (by simp) (by decide +kernel) (by decide +kernel) exAB_hyp (by simp) (by decide) ?_
  intro f hf p hp t
  have hfin : ∀ f ∈ [exA, exB], ∀ v ∈ (col? f.data "M").getD [], (0 : ℚ) ≤ v := by decide +kernel
  rw [List.mem_singleton.mp hp]
  unfold val
  rw [List.getD_eq_getElem?_getD]
  cases hv : ((col? f.data "M").getD [])[t]? with
  | none => exact le_rfl
  | some v => exact hfin f hf v (List.mem_of_getElem? hv)

/-- Two maps with bins of 1 nm and of 2 nm. -/
def fineMap : Flow := ⟨[("X", [0, 1]), ("Y", [0, 0]), ("M", [1, 3])], { shape := some (2, 1), origin := some (0, 0), spacing := some (1, 1) }⟩

@[inherit_doc fineMap]
def coarseMap : Flow := ⟨[("X", [0, 2]), ("Y", [0, 0]), ("M", [5, 7])], { shape := some (2, 1), origin := some (0, 0), spacing := some (2, 2) }⟩

/-- **C155, counterexample.** Maps with bins of 1 nm and of 2 nm are refused. In metres they are averaged, bin by bin in spite of their different sizes (the density 7 found at 2 nm is added to that at 1 nm): the spacings count as equal if they differ by
less than 1e-8, whatever the unit. -/
theorem C155_spacing_counterexample :
    averageFlowData 999 [fineMap, coarseMap] [] = .error .valueError ∧
    (averageFlowData 999 ([fineMap, coarseMap].map metres.flow) []).map (fun f => (col? f.data "M", f.info.spacing)) = .ok (some [6, 10, 0], some (1 / 1000000000, 1 / 1000000000)) ∧
    metres.Valid := by
  refine ⟨by decide +kernel, by decide +kernel, metres_valid⟩

end Strata.Average
