import Verif.Props.InterfaceUnits
import Verif.Props.SpreadingEdges
import Verif.Spec.SpreadingUnits
/-!
# C154: spreading curves do not depend on the units
-/
namespace Strata.Spreading
open Strata Strata.Flow Strata.Average Strata.Interface

variable {u : SeriesUnits}

/-- The columns of a record without the positions along x. -/
def rest (d : Record) : Record := d.filter fun c => c.1 ≠ "X"

/-- The change of units of the search in maps with these columns. -/
def SeriesUnits.search (u : SeriesUnits) (d : Record) : Units :=
  { scale := u.length, y0 := u.y0, vscale := u.density, v0 := u.density0, other := fun i => match (rest d)[i]? with | some c => u.value c.1 | none => id }

theorem value_mono (h : u.Valid) (l : Label) (hl : l ≠ "X") : StrictMono (u.value l) := by
  unfold SeriesUnits.value
  intro a b hab
  simp only [if_neg hl]
  split_ifs
  · have := h.length; nlinarith
  · have := h.density; nlinarith
  · exact h.other l hab

theorem search_valid (h : u.Valid) (d : Record) : (u.search d).Valid := by
  refine ⟨h.length, h.density, fun i => ?_⟩
  show StrictMono (match (rest d)[i]? with | some c => u.value c.1 | none => id)
  cases hc : (rest d)[i]? with
  | none => exact strictMono_id
  | some c =>
    have hm := List.mem_of_getElem? hc
    refine value_mono h _ ?_
    simpa using (List.mem_filter.mp hm).2

theorem lookup_units (d : Record) (l : Label) : (d.map fun c => (c.1, c.2.map (u.value c.1))).lookup l = (d.lookup l).map fun c => c.map (u.value l) := by
  induction d with
  | nil => rfl
  | cons c d ih =>
    rw [List.map_cons, List.lookup_cons, List.lookup_cons]
    by_cases hl : l = c.1
    · subst hl; simp
    · have : (l == c.1) = false := by simpa using hl
      simp only [this]
      exact ih

theorem field_units (f : Flow) (l : Label) : field (u.flow f).data l = (field f.data l).map fun c => c.map (u.value l) := by
  unfold field col?
  rw [show (u.flow f).data = f.data.map fun c => (c.1, c.2.map (u.value c.1)) from rfl, lookup_units]
  cases f.data.lookup l <;> rfl

theorem size_units (f : Flow) : size (u.flow f).data = size f.data := by
  show size (f.data.map fun c => (c.1, c.2.map (u.value c.1))) = size f.data
  cases f.data with
  | nil => rfl
  | cons c d => simp [size]

theorem getD_map {c : List ℚ} {t : ℕ} (ht : t < c.length) (g : ℚ → ℚ) : (c.map g).getD t 0 = g (c.getD t 0) := by
  simp [List.getD_eq_getElem?_getD, List.getElem?_eq_getElem ht]

theorem lookup_length {f : Flow} (hw : Wf f.data) {l : Label} {c : List ℚ} (h : field f.data l = .ok c) : c.length = size f.data := by
  unfold field col? at h
  cases hl : f.data.lookup l with
  | none => rw [hl] at h; cases h
  | some c' =>
    rw [hl] at h
    injection h with h
    subst h
    have : (l, c') ∈ f.data := by
      generalize f.data = d at hl
      induction d with
      | nil => simp at hl
      | cons e d ih =>
        rw [List.lookup_cons] at hl
        by_cases he : l = e.1
        · subst he
          simp at hl
          exact List.mem_cons.mpr (.inl (by rw [← hl]))
        · have : (l == e.1) = false := by simpa using he
          simp only [this] at hl
          exact List.mem_cons_of_mem _ (ih hl)
    exact hw.2 _ this

theorem cells_units (f : Flow) (hw : Wf f.data) : cells (u.flow f).data "M" = (cells f.data "M").map (u.search f.data).map := by
  unfold cells
  dsimp only
  rw [field_units, field_units, field_units, size_units]
  cases hx : field f.data "X" with
  | error e => rfl
  | ok xs =>
    cases hy : field f.data "Y" with
    | error e => rfl
    | ok ys =>
      cases hv : field f.data "M" with
      | error e => rfl
      | ok vs =>
        simp only [Except.map, bind, Except.bind]
        congr 1
        unfold Interface.Units.map
        rw [List.map_map]
        refine List.map_congr_left fun t ht => ?_
        rw [List.mem_range] at ht
        have lx := lookup_length hw hx
        have ly := lookup_length hw hy
        have lv := lookup_length hw hv
        show Cell.mk _ _ _ _ = Cell.mk _ _ _ _
        congr 1
        · rw [getD_map (by omega)]
          show u.value "X" _ = u.length * _ + 0
          simp [SeriesUnits.value]
        · rw [getD_map (by omega)]
          show u.value "Y" _ = u.length * _ + u.y0
          simp [SeriesUnits.value]
        · rw [getD_map (by omega)]
          show u.value "M" _ = u.density * _ + u.density0
          simp [SeriesUnits.value]
        · show ((f.data.map fun c => (c.1, c.2.map (u.value c.1))).filter fun c => decide (c.1 ≠ "X")).map (fun c => c.2.getD t 0) = _
          rw [List.filter_map]
          have e : ((fun c : Label × List ℚ => decide (c.1 ≠ "X")) ∘ fun c : Label × List ℚ => (c.1, c.2.map (u.value c.1))) = fun c => decide (c.1 ≠ "X") := rfl
          rw [e, List.map_map]
          apply List.ext_getElem
          · simp
          · intro i h1 h2
            simp only [List.getElem_map, List.getElem_mapIdx, Function.comp]
            have hi : i < (rest f.data).length := by simpa [rest] using h1
            have hmem : (rest f.data)[i] ∈ f.data := (List.mem_filter.mp (List.getElem_mem hi)).1
            have hl := hw.2 _ hmem
            show ((rest f.data)[i].2.map (u.value (rest f.data)[i].1)).getD t 0 = (match (rest f.data)[i]? with | some c => u.value c.1 | none => id) ((rest f.data)[i].2.getD t 0)
            rw [getD_map (by omega), List.getElem?_eq_getElem hi]

theorem boxSize_units (f : Flow) : boxSize (u.flow f) = (boxSize f).map fun b => (u.length * b.1, u.length * b.2) := by
  show (match f.info.shape, f.info.spacing.map (fun d => (u.length * d.1, u.length * d.2)) with
    | some (nx, ny), some (dx, dy) => some ((nx : ℚ) * dx, (ny : ℚ) * dy)
    | _, _ => none) = _
  unfold boxSize
  cases f.info.shape with
  | none => rfl
  | some n =>
    cases f.info.spacing with
    | none => rfl
    | some d =>
      simp only [Option.map_some]
      congr 1
      ext <;> ring

/-- A layer in the new units. -/
def SeriesUnits.height (u : SeriesUnits) (y : ℚ) : ℚ := u.length * y + u.y0

theorem floorHeight_units (floor : Option ℚ) (h : floor = none ∨ u.length = 1) (ys : List ℚ) :
    floorHeight (floor.map u.height) (ys.map u.height) = (floorHeight floor ys).map fun y => y.map u.height := by
  cases floor with
  | none => rfl
  | some f =>
    have h1 : u.length = 1 := by simpa using h
    have hm : ∀ y, floorMeasure (u.height f) (u.height y) = floorMeasure f y := by
      intro y
      unfold floorMeasure SeriesUnits.height
      rw [h1]
      congr 3
      ring
    cases ys with
    | nil => rfl
    | cons y ys =>
      show ((Except.ok _ : Except Err ℚ).map some) = _
      rw [List.foldl_map]
      have : ∀ (l : List ℚ) (b : ℚ), List.foldl (fun best z => if floorMeasure (u.height f) (u.height z) < floorMeasure (u.height f) best then u.height z else best) (u.height b) l =
          u.height (List.foldl (fun best z => if floorMeasure f z < floorMeasure f best then z else best) b l) := by
        intro l
        induction l with
        | nil => intro b; rfl
        | cons a l ih =>
          intro b
          rw [List.foldl_cons, List.foldl_cons, hm, hm, ← ih]
          congr 1
          split_ifs <;> rfl
      rw [this]
      rfl

theorem firstInLayer_units (v : Units) (hv : v.Valid) (hx : v.x0 = 0) (s : System) (yf : Option ℚ) (pts : List (ℕ × ℕ)) (hp : ∀ p ∈ pts, p.1 < s.length ∧ p.2 < s.length) :
    firstInLayer (v.map s) (yf.map v.height) pts = (firstInLayer s yf pts).map fun e => (v.scale * e.1, v.scale * e.2) := by
  unfold firstInLayer
  have hcond : ∀ p ∈ pts, (fun p : ℕ × ℕ => match yf.map v.height with | none => true | some y => decide ((row (v.map s) p.1).y = y)) p =
      (fun p : ℕ × ℕ => match yf with | none => true | some y => decide ((row s p.1).y = y)) p := by
    intro p hm
    cases yf with
    | none => rfl
    | some y =>
      show decide ((row (v.map s) p.1).y = v.height y) = decide ((row s p.1).y = y)
      rw [row_conv s _ (hp p hm).1]
      apply decide_eq_decide.mpr
      exact ⟨fun e => height_inj hv e, fun e => by rw [← e]; rfl⟩
  revert hcond
  generalize (fun p : ℕ × ℕ => match yf.map v.height with | none => true | some y => decide ((row (v.map s) p.1).y = y)) = P'
  generalize (fun p : ℕ × ℕ => match yf with | none => true | some y => decide ((row s p.1).y = y)) = P
  intro hcond
  induction pts with
  | nil => rfl
  | cons p pts ih =>
    have hp1 := hp p List.mem_cons_self
    have ih := ih (fun q hq => hp q (List.mem_cons_of_mem _ hq)) fun q hq => hcond q (List.mem_cons_of_mem _ hq)
    rw [List.find?_cons, List.find?_cons, hcond p List.mem_cons_self]
    split
    · simp only [Option.map_some]
      rw [row_conv s _ hp1.1, row_conv s _ hp1.2]
      simp [Units.cell, hx]
    · exact ih

theorem edges_units (v : Units) (hv : v.Valid) (hx : v.x0 = 0) (s : System) (box : Option (ℚ × ℚ)) (radius : ℚ) (floor : Option ℚ) (o : Opts)
    (hf : floorHeight (floor.map v.height) ((s.map (·.y)).map v.height) = (floorHeight floor (s.map (·.y))).map fun y => y.map v.height) :
    spreadingEdges (v.map s) (v.box box) (v.len radius) (floor.map v.height) (v.opts o) = (spreadingEdges s box radius floor o).map fun e => e.map fun e => (v.scale * e.1, v.scale * e.2) := by
  unfold spreadingEdges
  have hY : (v.map s).map (·.y) = (s.map (·.y)).map v.height := by
    unfold Interface.Units.map
    rw [List.map_map, List.map_map]; rfl
  rw [hY, hf]
  cases floorHeight floor (s.map (·.y)) with
  | error e => rfl
  | ok yf =>
    simp only [Except.map, bind, Except.bind]
    have ho : ({ v.opts o with ylims := (yf.map v.height, yf.map v.height), radius := some (v.len radius) } : Opts) = v.opts { o with ylims := (yf, yf), radius := some radius } := rfl
    rw [ho, C147_interface v hv s box _ (fun _ => hx)]
    cases hg : getInterface s box { o with ylims := (yf, yf), radius := some radius } with
    | error e => rfl
    | ok pts =>
      have hr := interface_rows s box _ pts hg
      simp only
      rw [firstInLayer_units v hv hx s yf pts fun p hp => ⟨(hr p hp).1, (hr p hp).2.1⟩]

/-- One map in the new units. -/
theorem frame_units (h : u.Valid) (f : Flow) (hw : Wf f.data) (path : Text) (radius : ℚ) (floor : Option ℚ) (hfl : floor = none ∨ u.length = 1) (o : Opts) :
    frameOf (u.flow f) path (u.length * radius) (floor.map u.height) (u.opts o) =
      (frameOf f path radius floor o).map fun fr => ⟨u.length * fr.box, fr.edges.map fun e => (u.length * e.1, u.length * e.2), fr.path⟩ := by
  unfold frameOf
  rw [cells_units f hw, boxSize_units]
  cases cells f.data "M" with
  | error e => rfl
  | ok s =>
    simp only [Except.map, bind, Except.bind]
    have hv := search_valid h f.data
    have he := edges_units (u.search f.data) hv rfl s (boxSize f) radius floor { o with longest := true } (floorHeight_units floor hfl _)
    rw [show spreadingEdges ((u.search f.data).map s) ((boxSize f).map fun b => (u.length * b.1, u.length * b.2)) (u.length * radius) (floor.map u.height)
        { u.opts o with longest := true } = _ from he]
    cases spreadingEdges s (boxSize f) radius floor { o with longest := true } with
    | error e => rfl
    | ok e =>
      simp only [Except.map]
      cases e with
      | none => cases boxSize f <;> simp
      | some e => cases boxSize f <;> rfl

/-! ### The curve -/

/-- What is remembered between maps, in the new units. -/
def SeriesUnits.info (u : SeriesUnits) (i : PeriodicInfo) : PeriodicInfo :=
  ⟨i.leftPrev.map fun x => u.length * x, i.rightPrev.map fun x => u.length * x, i.multLeft, i.multRight⟩

theorem pyMod_units (h : u.Valid) (x b : ℚ) : pyMod (u.length * x) (u.length * b) = u.length * pyMod x b := by
  unfold pyMod
  rw [mul_div_mul_left _ _ h.length.ne']
  ring

theorem mult_units (h : u.Valid) (x b : ℚ) : multAddition (u.length * x) (u.length * b) = multAddition x b := by
  unfold multAddition
  rw [pyMod_units h, ← mul_sub, abs_mul, abs_of_pos h.length]
  simp only [gt_iff_lt, mul_lt_mul_iff_right₀ h.length]

theorem updateInfo_units (h : u.Valid) (i : PeriodicInfo) (b l r : ℚ) :
    updateInfo (u.info i) (u.length * b) (u.length * l) (u.length * r) = u.info (updateInfo i b l r) := by
  obtain ⟨lp, rp, ml, mr⟩ := i
  unfold updateInfo SeriesUnits.info
  have e1 : u.length * l + (ml : ℚ) * (u.length * b) = u.length * (l + ml * b) := by ring
  have e2 : u.length * r + (mr : ℚ) * (u.length * b) = u.length * (r + mr * b) := by ring
  have lt : ∀ a c : ℚ, u.length * a < u.length * c ↔ a < c := fun a c => mul_lt_mul_iff_right₀ h.length
  cases lp with
  | none =>
    simp only [Option.map_none, gt_iff_lt, lt]
    split_ifs <;> simp_all
  | some lp =>
    cases rp with
    | none =>
      simp only [Option.map_none, Option.map_some, gt_iff_lt, lt]
    | some rp =>
      simp only [Option.map_some, e1, e2, mult_units h]
      have hc : crossing (u.length * l) (u.length * r) (u.length * lp) (u.length * rp) = crossing l r lp rp := by
        unfold crossing
        simp only [gt_iff_lt, lt]
      rw [hc]
      simp only [← mul_sub, abs_mul, abs_of_pos h.length, gt_iff_lt, lt]

/-- The state in the new units. -/
def SeriesUnits.state (u : SeriesUnits) (s : State) : State := ⟨u.info s.info, u.time * s.time, s.rows.map u.row, s.flag, s.lines.map u.line⟩

/-- A frame in the new units. -/
def SeriesUnits.frame (u : SeriesUnits) (fr : Frame) : Frame := ⟨u.length * fr.box, fr.edges.map fun e => (u.length * e.1, u.length * e.2), fr.path⟩

theorem step_units (h : u.Valid) (dt : ℚ) (save : Bool) (s : State) (i : ℕ) (fr : Frame) :
    step (u.time * dt) save (u.state s) i (u.frame fr) = u.state (step dt save s i fr) := by
  obtain ⟨box, e, path⟩ := fr
  cases e with
  | none => rfl
  | some e =>
    obtain ⟨l, r⟩ := e
    unfold step SeriesUnits.frame
    simp only [Option.map_some]
    rw [show (u.state s).info = u.info s.info from rfl, updateInfo_units h]
    have ha : addMultipliers (u.info (updateInfo s.info box l r)) (u.length * box) (u.length * l) (u.length * r) =
        (u.length * (addMultipliers (updateInfo s.info box l r) box l r).1, u.length * (addMultipliers (updateInfo s.info box l r) box l r).2) := by
      unfold addMultipliers SeriesUnits.info
      ext <;> simp only <;> ring
    rw [ha]
    generalize addMultipliers (updateInfo s.info box l r) box l r = q
    obtain ⟨la, ra⟩ := q
    simp only
    have hrow : (⟨(u.state s).time, |1 / 2 * (u.length * ra - u.length * la)|, u.length * la, u.length * ra⟩ : Row) = u.row ⟨s.time, |1 / 2 * (ra - la)|, la, ra⟩ := by
      have : |1 / 2 * (u.length * ra - u.length * la)| = u.length * |1 / 2 * (ra - la)| := by
        rw [show 1 / 2 * (u.length * ra - u.length * la) = u.length * (1 / 2 * (ra - la)) by ring, abs_mul, abs_of_pos h.length]
      rw [this]
      rfl
    rw [hrow]
    unfold SeriesUnits.state
    cases save with
    | false => simp [mul_add]
    | true =>
      cases hfl : s.flag with
      | true => simp [mul_add, SeriesUnits.line]
      | false =>
        simp only [if_true, Bool.false_eq_true, if_false, List.map_append, List.map_cons, List.map_nil, SeriesUnits.line, mul_add]
        rw [mul_left_comm]

theorem loop_units (h : u.Valid) (dt : ℚ) (save : Bool) (frames : List Frame) : ∀ (s : State) (i : ℕ),
    loop (u.time * dt) save (u.state s) i (frames.map u.frame) = u.state (loop dt save s i frames) := by
  induction frames with
  | nil => intro s i; rfl
  | cons fr frames ih =>
    intro s i
    rw [List.map_cons, loop, loop, step_units h, ih]

/-- **C154 (partial).** Collect the curve of a series of maps, and that of the same maps in other units, with all options in these units: the same calls fail, and if they do not, the curve, row by row,
and the lines of the file are those of the first one in the new units. Missing: a given floor in another unit of length (`C154_floor_counterexample`). -/
theorem C154_curve_partial (u : SeriesUnits) (h : u.Valid) (dt t0 : ℚ) (save flag : Bool) (radius : ℚ) (floor : Option ℚ) (hfl : floor = none ∨ u.length = 1) (o : Opts)
    (maps : List (Flow × Text)) (hw : ∀ m ∈ maps, Wf m.1.data) :
    (collectMaps (u.time * dt) (u.time * t0) save flag (u.length * radius) (floor.map fun y => u.length * y + u.y0) (u.opts o) (maps.map fun m => (u.flow m.1, m.2))).map
        (fun s => (s.rows, s.lines, s.flag)) =
      (collectMaps dt t0 save flag radius floor o maps).map fun s => (s.rows.map u.row, s.lines.map u.line, s.flag) := by
  unfold collectMaps
  have hfr : ((maps.map fun m => (u.flow m.1, m.2)).mapM fun m => frameOf m.1 m.2 (u.length * radius) (floor.map fun y => u.length * y + u.y0) (u.opts o)) =
      (maps.mapM fun m => frameOf m.1 m.2 radius floor o).map fun l => l.map u.frame := by
    induction maps with
    | nil => rfl
    | cons m maps ih =>
      rw [List.map_cons, List.mapM_cons, List.mapM_cons, ih fun q hq => hw q (List.mem_cons_of_mem _ hq)]
      rw [show frameOf (u.flow m.1) m.2 (u.length * radius) (floor.map fun y => u.length * y + u.y0) (u.opts o) = _ from
        frame_units h m.1 (hw m List.mem_cons_self) m.2 radius floor hfl o]
      cases frameOf m.1 m.2 radius floor o with
      | error e => rfl
      | ok fr =>
        cases maps.mapM fun m => frameOf m.1 m.2 radius floor o <;> rfl
  rw [hfr]
  cases maps.mapM fun m => frameOf m.1 m.2 radius floor o with
  | error e => rfl
  | ok frames =>
    simp only [Except.map, bind, Except.bind]
    congr 1
    unfold collect
    have := loop_units h dt save frames ⟨initPeriodicInfo, t0, [], flag, []⟩ 0
    rw [show (⟨initPeriodicInfo, u.time * t0, [], flag, []⟩ : State) = u.state ⟨initPeriodicInfo, t0, [], flag, []⟩ from rfl, this]
    rfl

/-! ### A droplet in nanometres and in ångström -/

/-- Two layers of a droplet, five bins wide: four bins wet the lower layer, two the upper one. -/
def unitsMap : Flow :=
  ⟨[("X", [0, 1, 2, 3, 4, 0, 1, 2, 3, 4]), ("Y", [3 / 20, 3 / 20, 3 / 20, 3 / 20, 3 / 20, 9 / 20, 9 / 20, 9 / 20, 9 / 20, 9 / 20]), ("M", [1, 1, 1, 1, 0, 0, 1, 1, 0, 0]),
      ("T", [300, 300, 300, 300, 0, 0, 300, 300, 0, 0])],
    { shape := some (5, 2), origin := some (0, 3 / 20), spacing := some (1, 3 / 10) }⟩

/-- Nanometres to ångström, picoseconds to femtoseconds, and a tenth of the density; temperatures in Celsius. -/
def unitsDemo : SeriesUnits := { length := 10, density := 1 / 10, time := 1000, other := fun _ v => v - 5463 / 20 }

theorem unitsDemo_valid : unitsDemo.Valid := ⟨by decide +kernel, by decide +kernel, fun _ a b h => sub_lt_sub_right h _⟩

theorem unitsMap_wf : Wf unitsMap.data := ⟨by decide +kernel, by decide +kernel⟩

/-- The droplet without a floor: the curve in the two units. -/
example : (collectMaps 2 0 true false 1 none {} [(unitsMap, [])]).map (fun s => s.rows) = .ok [⟨0, 3 / 2, 0, 3⟩] ∧
    (collectMaps 2000 0 true false 10 none (unitsDemo.opts {}) [(unitsDemo.flow unitsMap, [])]).map (fun s => s.rows) = .ok [⟨0, 15, 0, 30⟩] ∧
    Wf unitsMap.data ∧ unitsDemo.Valid := by
  refine ⟨?_, ?_, unitsMap_wf, unitsDemo_valid⟩ <;> decide +kernel

/-- **C154, counterexample.** With a floor of 0.2 nm the layer above it is used, at 0.45 nm, and the radius is 0.5 nm. For the same map in ångström, with the floor at 2 Å, the layer below the floor is
used: the radius is 15 Å. -/
theorem C154_floor_counterexample :
    (collectMaps 2 0 true false 1 (some (1 / 5)) {} [(unitsMap, [])]).map (fun s => s.rows) = .ok [⟨0, 1 / 2, 1, 2⟩] ∧
    (collectMaps 2000 0 true false 10 (some 2) (unitsDemo.opts {}) [(unitsDemo.flow unitsMap, [])]).map (fun s => s.rows) = .ok [⟨0, 15, 0, 30⟩] ∧
    unitsDemo.row ⟨0, 1 / 2, 1, 2⟩ = ⟨0, 5, 10, 20⟩ ∧ unitsDemo.Valid ∧ Wf unitsMap.data := by
  refine ⟨?_, ?_, ?_, unitsDemo_valid, unitsMap_wf⟩ <;> decide +kernel

end Strata.Spreading
