import Verif.Spec.Mirror
import Verif.Props.Spreading
import Verif.Props.InterfaceStored
/-!
# C160: maps seen in a mirror
-/
namespace Strata.Interface
open Strata Strata.Flow

/-- **C160, interface.** The interface of a map seen in a mirror is the interface, seen in the mirror: at every height, what was the right edge is the left edge, for all options
of the default search, defaults included; and the same searches fail. -/
theorem C160_interface_mirrored (s : System) (box : Option (ℚ × ℚ)) (o : Opts) (hl : o.longest = false) :
    foundEdges (mirror s) box o = (foundEdges s box o).map fun l => l.map fun t : ℚ × ℚ × ℚ => (t.1, -t.2.2, -t.2.1) := by
  refine foundEdges_of hl hl (getCutoff_mirror _ _).symm (getRadius_mirror _ _).symm _ fun c r => ?_
  exact isLayers_unique (isLayers_outsideIn _ _ _ _ _ _) (isLayers_mirror (isLayers_outsideIn _ _ _ _ _ _))

/-- A layer with two drops of one bin, and the same layer seen in a mirror in the middle of the box, bins stored from the left. -/
def twoDrops : System := [⟨1 / 2, 0, 1, [0]⟩, ⟨3 / 2, 0, 0, [0]⟩, ⟨5 / 2, 0, 1, [0]⟩, ⟨7 / 2, 0, 0, [0]⟩]
def twoDropsMirrored : System := [⟨1 / 2, 0, 0, [0]⟩, ⟨3 / 2, 0, 1, [0]⟩, ⟨5 / 2, 0, 0, [0]⟩, ⟨7 / 2, 0, 1, [0]⟩]

/-- **C160, counterexample: the longest stretch.** With two stretches of the same length the periodic search takes the left one, of the map and of the map seen in a
mirror: it is not the same drop. -/
theorem C160_longest_counterexample :
    twoDropsMirrored = (twoDrops.map fun c => { c with x := 4 - c.x }).reverse ∧
    foundEdges twoDrops (some (4, 1)) { longest := true, radius := some 1, cutoff := some 1, bins := 0 } = .ok [(0, 1 / 2, 1 / 2)] ∧
    foundEdges twoDropsMirrored (some (4, 1)) { longest := true, radius := some 1, cutoff := some 1, bins := 0 } = .ok [(0, 3 / 2, 3 / 2)] := by
  refine ⟨by decide +kernel, ?_, ?_⟩ <;> decide +kernel

example : foundEdges dropDemo none {} = .ok [(0, 0, 3), (1, 1, 2)] ∧ foundEdges (mirror dropDemo) none {} = .ok [(0, -3, 0), (1, -2, -1)] := by
  refine ⟨?_, ?_⟩ <;> decide +kernel

end Strata.Interface

namespace Strata.Spreading
open Strata

theorem floor_mirror {b x : ℚ} (hb : 0 < b) (k : ℤ) (hx : Inside b x) : ⌊((k : ℚ) * b - x) / b⌋ = k - 1 - ⌊x / b⌋ := by
  have h1 : ((k : ℚ) * b - x) / b = k - x / b := by field_simp
  have h2 := Int.floor_le (x / b)
  have h3 := Int.lt_floor_add_one (x / b)
  have h4 : ((⌊x / b⌋ : ℤ) : ℚ) ≠ x / b := by
    intro h
    rw [eq_div_iff hb.ne'] at h
    refine hx (2 * ⌊x / b⌋) ?_
    push_cast
    linarith
  have h5 := lt_of_le_of_ne h2 h4
  rw [h1, Int.floor_eq_iff]
  push_cast
  constructor <;> linarith

theorem pyMod_mirror {b x : ℚ} (hb : 0 < b) (k : ℤ) (hx : Inside b x) : pyMod ((k : ℚ) * b - x) b = b - pyMod x b := by
  unfold pyMod
  rw [floor_mirror hb k hx]
  push_cast
  ring

theorem multAddition_mirror {b x : ℚ} (hb : 0 < b) (k : ℤ) (hx : Inside b x) : multAddition ((k : ℚ) * b - x) b = -multAddition x b := by
  unfold multAddition
  rw [pyMod_mirror hb k hx]
  have hne : pyMod x b ≠ b / 2 := by
    intro h
    unfold pyMod at h
    refine hx (2 * ⌊x / b⌋ + 1) ?_
    push_cast
    linarith
  have h0 : 0 ≤ pyMod x b := by
    unfold pyMod
    have := Int.floor_le (x / b)
    rw [le_div_iff₀ hb] at this
    linarith
  have h1 : pyMod x b < b := by
    unfold pyMod
    have := Int.lt_floor_add_one (x / b)
    rw [div_lt_iff₀ hb] at this
    linarith
  generalize pyMod x b = m at *
  rw [abs_of_pos (by linarith : 0 < b - m), show b - (b - m) = m by ring, abs_of_nonneg h0]
  rcases lt_or_gt_of_ne hne with h | h
  · rw [if_pos (by linarith), if_neg (by linarith)]
  · rw [if_neg (by linarith), if_pos (by linarith)]; rfl

theorem inside_shift {b x : ℚ} (k : ℤ) (hx : Inside b x) : Inside b (x + k * b) := by
  intro j h
  refine hx (j - 2 * k) ?_
  push_cast
  linarith

theorem crossing_mirror (b l r lp rp : ℚ) : crossing (b - r) (b - l) (b - rp) (b - lp) = crossing l r lp rp := by
  unfold crossing
  simp only [gt_iff_lt, sub_lt_sub_iff_left]

theorem crossing_change (l r lp rp : ℚ) : crossing l r lp rp = true ↔ ¬ (rp < lp ↔ r < l) := by
  unfold crossing
  by_cases h1 : r < l <;> by_cases h2 : rp < lp <;> simp [h1, h2]

/-- The periodic information of the mirrored run, once an edge was seen. -/
def mirrorInfo (b : ℚ) (c : ℤ) (i : PeriodicInfo) : PeriodicInfo :=
  ⟨i.rightPrev.map fun x => b - x, i.leftPrev.map fun x => b - x, c - i.multRight, c - i.multLeft⟩

theorem updateInfo_mirror {b l r lp rp : ℚ} (hb : 0 < b) (c : ℤ) (ml mr : ℤ) (hl : Inside b l) (hr : Inside b r) (ht : ¬ Tied (lp, rp) (l, r)) :
    updateInfo (mirrorInfo b c ⟨some lp, some rp, ml, mr⟩) b (b - r) (b - l) = mirrorInfo b c (updateInfo ⟨some lp, some rp, ml, mr⟩ b l r) := by
  have e1 : b - r + ((c - mr : ℤ) : ℚ) * b = ((c + 1 : ℤ) : ℚ) * b - (r + (mr : ℚ) * b) := by push_cast; ring
  have e2 : b - l + ((c - ml : ℤ) : ℚ) * b = ((c + 1 : ℤ) : ℚ) * b - (l + (ml : ℚ) * b) := by push_cast; ring
  have m1 := multAddition_mirror hb (c + 1) (inside_shift mr hr)
  have m2 := multAddition_mirror hb (c + 1) (inside_shift ml hl)
  have a1 : |b - r - (b - rp)| = |r - rp| := by rw [show b - r - (b - rp) = -(r - rp) by ring, abs_neg]
  have a2 : |b - l - (b - lp)| = |l - lp| := by rw [show b - l - (b - lp) = -(l - lp) by ring, abs_neg]
  unfold updateInfo mirrorInfo
  simp only [Option.map_some, crossing_mirror]
  rw [e1, e2, m1, m2, a1, a2]
  by_cases hc : crossing l r lp rp = true
  · have hne : |l - lp| ≠ |r - rp| := fun h => ht ⟨(crossing_change l r lp rp).mp hc, h⟩
    simp only [hc, if_true]
    rcases lt_or_gt_of_ne hne with h | h
    · rw [if_pos h, if_neg (by linarith)]
      simp only [PeriodicInfo.mk.injEq, true_and, and_true]
      ring
    · rw [if_neg (by linarith), if_pos h]
      simp only [PeriodicInfo.mk.injEq, true_and, and_true]
      ring
  · simp only [hc, Bool.false_eq_true, if_false]

/-- The state of the mirrored run. -/
def mirrorState (b : ℚ) (c : ℤ) (s : State) : State :=
  ⟨mirrorInfo b c s.info, s.time, s.rows.map (Row.mirrored ((c + 1 : ℤ) * b)), s.flag, s.lines.map (Line.mirrored ((c + 1 : ℤ) * b))⟩

theorem finish_mirror (dt : ℚ) (save : Bool) (b : ℚ) (c : ℤ) (s s' : State) (i : ℕ) (path : Text) (l r : ℚ)
    (hinfo : updateInfo s'.info b (b - r) (b - l) = mirrorInfo b c (updateInfo s.info b l r)) (ht : s'.time = s.time)
    (hrows : s'.rows = s.rows.map (Row.mirrored ((c + 1 : ℤ) * b))) (hflag : s'.flag = s.flag) (hlines : s'.lines = s.lines.map (Line.mirrored ((c + 1 : ℤ) * b))) :
    step dt save s' i ⟨b, some (b - r, b - l), path⟩ = mirrorState b c (step dt save s i ⟨b, some (l, r), path⟩) := by
  unfold step mirrorState
  simp only [hinfo, ht, hrows, hflag, hlines]
  generalize updateInfo s.info b l r = info
  have hla : b - r + ((mirrorInfo b c info).multLeft : ℚ) * b = ((c + 1 : ℤ) : ℚ) * b - (r + info.multRight * b) := by
    simp only [mirrorInfo]; push_cast; ring
  have hra : b - l + ((mirrorInfo b c info).multRight : ℚ) * b = ((c + 1 : ℤ) : ℚ) * b - (l + info.multLeft * b) := by
    simp only [mirrorInfo]; push_cast; ring
  unfold addMultipliers
  simp only [hla, hra]
  have hrow : (⟨s.time, |1 / 2 * (((c + 1 : ℤ) : ℚ) * b - (l + info.multLeft * b) - (((c + 1 : ℤ) : ℚ) * b - (r + info.multRight * b)))|,
      ((c + 1 : ℤ) : ℚ) * b - (r + info.multRight * b), ((c + 1 : ℤ) : ℚ) * b - (l + info.multLeft * b)⟩ : Row) =
      Row.mirrored ((c + 1 : ℤ) * b) ⟨s.time, |1 / 2 * (r + info.multRight * b - (l + info.multLeft * b))|, l + info.multLeft * b, r + info.multRight * b⟩ := by
    unfold Row.mirrored
    simp only [Row.mk.injEq, true_and, and_true]
    congr 1
    ring
  rw [hrow]
  cases save <;> cases hf : s.flag <;> simp [Line.mirrored]

theorem loop_mirror (dt : ℚ) (save : Bool) (b : ℚ) (hb : 0 < b) (c : ℤ) (fs : List Frame) : ∀ (s : State) (i : ℕ) (p : ℚ × ℚ),
    s.info.leftPrev = some p.1 → s.info.rightPrev = some p.2 → (∀ f ∈ fs, f.box = b) →
    (∀ f ∈ fs, ∀ e, f.edges = some e → Inside b e.1 ∧ Inside b e.2) → (p :: fs.filterMap (·.edges)).IsChain (fun p e => ¬ Tied p e) →
    loop dt save (mirrorState b c s) i (fs.map Frame.mirrored) = mirrorState b c (loop dt save s i fs) := by
  induction fs with
  | nil => intro s i p _ _ _ _ _; rfl
  | cons f fs ih =>
    intro s i p hl hr hbox hin hch
    obtain ⟨box, edges, path⟩ := f
    obtain rfl : box = b := hbox ⟨box, edges, path⟩ (by simp)
    cases edges with
    | none =>
      show loop dt save (mirrorState box c s) (i + 1) (fs.map Frame.mirrored) = mirrorState box c (loop dt save s (i + 1) fs)
      exact ih s (i + 1) p hl hr (fun f hf => hbox f (by simp [hf])) (fun f hf => hin f (by simp [hf])) (by simpa using hch)
    | some e =>
      obtain ⟨l, r⟩ := e
      obtain ⟨i1, i2⟩ := hin ⟨box, some (l, r), path⟩ (by simp) (l, r) rfl
      simp only [List.filterMap_cons] at hch
      rw [List.isChain_cons_cons] at hch
      rw [List.map_cons]
      show loop dt save (step dt save (mirrorState box c s) i ⟨box, some (box - r, box - l), path⟩) (i + 1) (fs.map Frame.mirrored) = _
      rw [finish_mirror dt save box c s (mirrorState box c s) i path l r ?_ rfl rfl rfl rfl]
      · exact ih _ (i + 1) (l, r) rfl rfl (fun f hf => hbox f (by simp [hf])) (fun f hf => hin f (by simp [hf])) hch.2
      · obtain ⟨⟨lp, rp, ml, mr⟩, t, rows, flag, lines⟩ := s
        simp only at hl hr
        subst hl hr
        exact updateInfo_mirror hb c ml mr i1 i2 hch.1

theorem start_mirror (dt : ℚ) (save : Bool) (b : ℚ) (hb : 0 < b) (t0 : ℚ) (flag : Bool) (fs : List Frame) : ∀ (i : ℕ), (∀ f ∈ fs, f.box = b) →
    (∀ f ∈ fs, ∀ e, f.edges = some e → Inside b e.1 ∧ Inside b e.2) → (fs.filterMap (·.edges)).IsChain (fun p e => ¬ Tied p e) →
    ∃ c : ℤ, (c = 0 ∨ c = 1) ∧ (loop dt save ⟨initPeriodicInfo, t0, [], flag, []⟩ i (fs.map Frame.mirrored)).rows =
        (loop dt save ⟨initPeriodicInfo, t0, [], flag, []⟩ i fs).rows.map (Row.mirrored ((c + 1 : ℤ) * b)) ∧
      (loop dt save ⟨initPeriodicInfo, t0, [], flag, []⟩ i (fs.map Frame.mirrored)).lines =
        (loop dt save ⟨initPeriodicInfo, t0, [], flag, []⟩ i fs).lines.map (Line.mirrored ((c + 1 : ℤ) * b)) := by
  induction fs with
  | nil => intro i _ _ _; exact ⟨0, .inl rfl, rfl, rfl⟩
  | cons f fs ih =>
    intro i hbox hin hch
    obtain ⟨box, edges, path⟩ := f
    obtain rfl : box = b := hbox ⟨box, edges, path⟩ (by simp)
    cases edges with
    | none => exact ih (i + 1) (fun f hf => hbox f (by simp [hf])) (fun f hf => hin f (by simp [hf])) (by simpa using hch)
    | some e =>
      obtain ⟨l, r⟩ := e
      simp only [List.filterMap_cons] at hch
      have key : ∀ c : ℤ, (c = if r < l then 1 else 0) →
          step dt save ⟨initPeriodicInfo, t0, [], flag, []⟩ i ⟨box, some (box - r, box - l), path⟩ =
            mirrorState box c (step dt save ⟨initPeriodicInfo, t0, [], flag, []⟩ i ⟨box, some (l, r), path⟩) := by
        intro c hc
        refine finish_mirror dt save box c ⟨initPeriodicInfo, t0, [], flag, []⟩ ⟨initPeriodicInfo, t0, [], flag, []⟩ i path l r ?_ rfl rfl rfl rfl
        unfold updateInfo initPeriodicInfo mirrorInfo
        simp only [gt_iff_lt, sub_lt_sub_iff_left]
        by_cases h : r < l
        · simp [h, hc]
        · simp [h, hc]
      refine ⟨if r < l then 1 else 0, ?_, ?_⟩
      · by_cases h : r < l <;> simp [h]
      · rw [List.map_cons]
        show (loop dt save (step dt save _ i ⟨box, some (box - r, box - l), path⟩) (i + 1) (fs.map Frame.mirrored)).rows =
            (loop dt save (step dt save _ i ⟨box, some (l, r), path⟩) (i + 1) fs).rows.map _ ∧
          (loop dt save (step dt save _ i ⟨box, some (box - r, box - l), path⟩) (i + 1) (fs.map Frame.mirrored)).lines =
            (loop dt save (step dt save _ i ⟨box, some (l, r), path⟩) (i + 1) fs).lines.map _
        rw [key _ rfl, loop_mirror dt save box hb _ fs _ (i + 1) (l, r) rfl rfl (fun f hf => hbox f (by simp [hf])) (fun f hf => hin f (by simp [hf])) hch]
        exact ⟨rfl, rfl⟩

/-- **C160, spreading.** The spreading curve of a series of maps seen in a mirror is that of the maps, seen in the mirror: same times, same radii, left and right edges exchanged,
and the file written is the mirrored one.  This holds for drops that leave the box through its boundary any number of times, unless an edge is found exactly on the boundary or in the middle
of the box, or both edges jump equally far while they change sides.  (Missing: these cases; see the counterexample.) -/
theorem C160_spreading_mirrored_partial (dt t0 : ℚ) (save flag : Bool) (b : ℚ) (hb : 0 < b) (fs : List Frame) (hbox : ∀ f ∈ fs, f.box = b)
    (hin : ∀ f ∈ fs, ∀ e, f.edges = some e → Inside b e.1 ∧ Inside b e.2) (hch : (fs.filterMap (·.edges)).IsChain (fun p e => ¬ Tied p e)) :
    ∃ K, (K = b ∨ K = 2 * b) ∧
      (collect dt t0 save flag (fs.map Frame.mirrored)).rows = (collect dt t0 save flag fs).rows.map (Row.mirrored K) ∧
      (collect dt t0 save flag (fs.map Frame.mirrored)).lines = (collect dt t0 save flag fs).lines.map (Line.mirrored K) := by
  obtain ⟨c, hc, h⟩ := start_mirror dt save b hb t0 flag fs 0 hbox hin hch
  refine ⟨((c + 1 : ℤ) : ℚ) * b, ?_, h⟩
  rcases hc with rfl | rfl
  · left; norm_num
  · right; norm_num

/-- **C160, counterexample: an edge in the middle of the box.** When the edges change sides and the one that moved more is exactly in the middle of the box, it is taken to have
moved to the right — in the map and in the map seen in the mirror.  The radii differ: 4.5 and 5.5 in a box of 10. -/
theorem C160_middle_counterexample :
    let fs : List Frame := [⟨10, some (4, 9), []⟩, ⟨10, some (6, 5), []⟩]
    (collect 1 0 false false fs).rows.map (·.radius) = [5 / 2, 9 / 2] ∧ (collect 1 0 false false (fs.map Frame.mirrored)).rows.map (·.radius) = [5 / 2, 11 / 2] := by
  refine ⟨?_, ?_⟩ <;> decide +kernel

/-- A drop that drifts to the left through the boundary. -/
def exDrift : List Frame := [⟨10, some (1, 6), []⟩, ⟨10, none, []⟩, ⟨10, some (9, 4), []⟩, ⟨10, some (8, 3), []⟩]

example : (∀ f ∈ exDrift, f.box = 10) ∧ (∀ f ∈ exDrift, ∀ e, f.edges = some e → Inside 10 e.1 ∧ Inside 10 e.2) ∧ (exDrift.filterMap (·.edges)).IsChain (fun p e => ¬ Tied p e) := by
  have hi : ∀ n : ℤ, n % 5 ≠ 0 → Inside 10 (n : ℚ) := by
    intro n hn k h
    have : n = k * 5 := by
      have h' : (n : ℚ) = ((k * 5 : ℤ) : ℚ) := by rw [h]; push_cast; ring
      exact_mod_cast h'
    omega
  refine ⟨by decide, ?_, ?_⟩
  · intro f hf e he
    simp only [exDrift, List.mem_cons, List.not_mem_nil, or_false] at hf
    rcases hf with rfl | rfl | rfl | rfl <;> simp only [Option.some.injEq, reduceCtorEq] at he
    · subst he; exact ⟨by simpa using hi 1 (by decide), by simpa using hi 6 (by decide)⟩
    · subst he; exact ⟨by simpa using hi 9 (by decide), by simpa using hi 4 (by decide)⟩
    · subst he; exact ⟨by simpa using hi 8 (by decide), by simpa using hi 3 (by decide)⟩
  · simp only [exDrift, List.filterMap_cons, List.filterMap_nil, List.isChain_cons_cons, List.IsChain.singleton, and_true, Tied]
    norm_num

example : (collect 1 0 false false exDrift).rows.map (fun r => (r.left, r.right)) = [(1, 6), (-1, 4), (-2, 3)] ∧
    (collect 1 0 false false (exDrift.map Frame.mirrored)).rows.map (fun r => (r.left, r.right)) = [(4, 9), (6, 11), (7, 12)] := by
  refine ⟨?_, ?_⟩ <;> decide +kernel

end Strata.Spreading
