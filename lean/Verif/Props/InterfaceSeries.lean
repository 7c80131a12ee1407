import Verif.Spec.InterfaceView
import Verif.Props.InterfaceText
import Verif.Props.InterfaceView
import Verif.Props.Driver
import Verif.Props.Recenter
/-!
# C117, C118: `view_interfaces` on files; edges of several interfaces
-/
namespace Strata.InterfaceView
open Strata Strata.Files Strata.InterfaceFiles Strata.InterfaceText Strata.Driver

variable {γ : Type}

theorem groupInterface_ok (text : γ → Text) (fs : FS γ) (names : List Text) (p : List Point) :
    groupInterface text fs names = .ok p ↔ IsAverageOf text fs names p := by
  unfold groupInterface IsAverageOf
  constructor
  · intro h
    obtain ⟨files, h1, h2⟩ := Simple.bind_eq_ok h
    refine ⟨files, ?_, h2⟩
    unfold readSeries at h1
    refine (forall₂_of_mapM h1).imp ?_
    intro n pts h
    unfold contentOf at h
    cases hc : fs.get? (splitPath n) with
    | none => rw [hc] at h; cases h
    | some c => rw [hc] at h; exact ⟨c, rfl, h⟩
  · rintro ⟨files, h1, h2⟩
    rw [readSeries_of text fs names files h1, Gmx.ok_bind, h2]

theorem isAverageOf_unique {text : γ → Text} {fs : FS γ} {names : List Text} {p q : List Point} (hp : IsAverageOf text fs names p) (hq : IsAverageOf text fs names q) : p = q := by
  rw [← groupInterface_ok] at hp hq
  exact Except.ok.inj (hp.symm.trans hq)

/-- The figures of the readable groups. -/
def figuresOf (saveFig : Option Text) (figext : Text) (start : ℤ) (l : List (ℕ × List Point)) : List (Option Text × List Point) :=
  (l.filter fun q => decide (1 < q.2.length)).map fun q => (saveFig.map fun b => fileName b figext (start + q.1), q.2)

theorem viewLoop_spec (text : γ → Text) (saveFig : Option Text) (figext : Text) (fs : FS γ) (start : ℤ) (names : ℕ → List Text) (out : ℕ → Text) (m : ℕ) : ∀ (i0 : ℕ) (n : ℤ),
    (saveFig.isSome → n = start + i0) →
    ∃ l : List (ℕ × List Point), (l.map Prod.fst).Pairwise (· < ·) ∧ (∀ q ∈ l, i0 ≤ q.1 ∧ q.1 < i0 + m ∧ IsAverageOf text fs (names q.1) q.2) ∧
      (∀ i, i0 ≤ i → i < i0 + m → ∀ p, IsAverageOf text fs (names i) p → (i, p) ∈ l) ∧
      viewLoop text accepts false saveFig figext fs n ((List.range' i0 m).map fun i : ℕ => (names i, out i)) = ⟨fs, l.map Prod.snd, figuresOf saveFig figext start l, .ok ()⟩ := by
  induction m with
  | zero => intro i0 n _; exact ⟨[], .nil, by simp, by intro i h1 h2; omega, rfl⟩
  | succ m ih =>
    intro i0 n hn
    rw [List.range'_succ, List.map_cons, viewLoop]
    cases hg : groupInterface text fs (names i0) with
    | error e =>
      simp only
      obtain ⟨l, h1, h2, h3, h4⟩ := ih (i0 + 1) (n + 1) (fun hs => by rw [hn hs]; push_cast; ring)
      refine ⟨l, h1, fun q hq => ⟨by have := (h2 q hq).1; omega, by have := (h2 q hq).2.1; omega, (h2 q hq).2.2⟩, ?_, h4⟩
      intro i hi1 hi2 p hp
      rcases Nat.eq_or_lt_of_le hi1 with rfl | hlt
      · rw [← groupInterface_ok, hg] at hp; cases hp
      · exact h3 i hlt (by omega) p hp
    | ok p =>
      simp only [Bool.false_eq_true, if_false]
      obtain ⟨l, h1, h2, h3, h4⟩ := ih (i0 + 1) (if saveFig.isSome then n + 1 else n) (fun hs => by rw [if_pos hs, hn hs]; push_cast; ring)
      refine ⟨(i0, p) :: l, ?_, ?_, ?_, ?_⟩
      · rw [List.map_cons, List.pairwise_cons]
        refine ⟨?_, h1⟩
        intro a ha
        obtain ⟨q, hq, rfl⟩ := List.mem_map.mp ha
        have := (h2 q hq).1
        show i0 < q.1
        omega
      · intro q hq
        rcases List.mem_cons.mp hq with rfl | hq
        · exact ⟨le_rfl, by omega, (groupInterface_ok _ _ _ _).mp hg⟩
        · exact ⟨by have := (h2 q hq).1; omega, by have := (h2 q hq).2.1; omega, (h2 q hq).2.2⟩
      · intro i hi1 hi2 p' hp
        rcases Nat.eq_or_lt_of_le hi1 with rfl | hlt
        · rw [← groupInterface_ok, hg] at hp
          rw [← Except.ok.inj hp]; simp
        · exact List.mem_cons_of_mem _ (h3 i hlt (by omega) p' hp)
      · rw [h4]
        have hname : (saveFig.map fun b => fileName b figext n) = saveFig.map fun b => fileName b figext (start + i0) := by
          cases saveFig with
          | none => rfl
          | some b => rw [hn rfl]
        by_cases hlen : 1 < p.length
        · rw [if_pos hlen]
          simp only [accepts, figuresOf, List.filter_cons, decide_eq_true hlen, if_true, List.map_cons]
          rw [hname]
        · rw [if_neg hlen]
          simp only [figuresOf, List.filter_cons, decide_eq_false hlen, Bool.false_eq_true, if_false, List.map_cons]

/-- **C117, the series.** Without saving interfaces nothing is written, and one interface is returned per group that can be read and averaged, in the order of the groups.  The figure of
group `i` is saved with the number that an output file of the group would get, `ceil(begin / average) + i`, also after groups that were skipped; an interface
with less than two points has no figure. -/
theorem C117_series (text : γ → Text) (fs : FS γ) (dir : Dir) (base : Text) (g : ℕ) (hg : 1 ≤ g) (saveFig : Option Text) (figext ext : Text) (b : ℤ) (e : Option ℤ)
    (k : ℕ) (hk : ∀ i, i < k → Complete dir base ext b e g false i) (hk' : ¬ Complete dir base ext b e g false k) :
    ∃ (start : ℤ) (shown : List (ℕ × List Point)), b ≤ start * g ∧ (start - 1) * g < b ∧
      (shown.map Prod.fst).Pairwise (· < ·) ∧ (∀ i p, (i, p) ∈ shown ↔ i < k ∧ IsAverageOf text fs (groupFiles base ext b g false i) p) ∧
      viewSeries text accepts fs dir base g [] saveFig figext ext b e =
        ⟨fs, shown.map Prod.snd, (shown.filter fun q => decide (1 < q.2.length)).map fun q => (saveFig.map fun f => fileName f figext (start + q.1), q.2), .ok ()⟩ := by
  obtain ⟨start, -, h2, h3⟩ := groups_found dir base [] ext none g hg false b e k hk hk'
  obtain ⟨a1, a2⟩ := h2 rfl
  have hstart : start = ceilDiv b g := by
    unfold ceilDiv
    have hg0 : (0 : ℚ) < g := by exact_mod_cast hg
    symm
    rw [Int.ceil_eq_iff]
    constructor
    · rw [lt_div_iff₀ hg0]; exact_mod_cast a2
    · rw [div_le_iff₀ hg0]; exact_mod_cast a1
  obtain ⟨l, l1, l2, l3, l4⟩ := viewLoop_spec text saveFig figext fs start (groupFiles base ext b g false) (fun i => fileName [] (Option.getD none ext) (start + i)) k 0 start
    (fun _ => by simp)
  refine ⟨start, l, a1, a2, l1, ?_, ?_⟩
  · intro i p
    constructor
    · intro h; have := l2 _ h; exact ⟨by simpa using this.2.1, this.2.2⟩
    · rintro ⟨h1, h2⟩; exact l3 i (Nat.zero_le _) (by simpa using h1) p h2
  · unfold viewSeries
    rw [h3, ← hstart, List.range_eq_range']
    exact l4

/-- **C117, figures that cannot be drawn.** The drawing stops at the first figure that the drawing library refuses, with its error. -/
theorem C117_drawing (text : γ → Text) (draw : Option Text → List Point → Except Err Unit) (fs : FS γ) (dir : Dir) (base : Text) (g : ℕ) (saveFig : Option Text) (figext ext : Text)
    (b : ℤ) (e : Option ℤ) (all : List (Option Text × List Point)) (hall : all = (viewSeries text accepts fs dir base g [] saveFig figext ext b e).figures) :
    (∃ before f after err, all = before ++ f :: after ∧ (∀ f ∈ before, draw f.1 f.2 = .ok ()) ∧ draw f.1 f.2 = .error err ∧
      (viewSeries text draw fs dir base g [] saveFig figext ext b e).figures = before ∧ (viewSeries text draw fs dir base g [] saveFig figext ext b e).outcome = .error err) ∨
    ((∀ f ∈ all, draw f.1 f.2 = .ok ()) ∧ viewSeries text draw fs dir base g [] saveFig figext ext b e = viewSeries text accepts fs dir base g [] saveFig figext ext b e) := by
  subst hall
  unfold viewSeries
  simp only [ne_eq, not_true_eq_false, decide_false]
  generalize findGroupsToSingles dir base [] ext none g false b e = pairs
  generalize ceilDiv b g = n
  induction pairs generalizing n with
  | nil => exact .inr ⟨by simp [viewLoop], rfl⟩
  | cons pr rest ih =>
    obtain ⟨names, out⟩ := pr
    rw [viewLoop, viewLoop]
    cases hg : groupInterface text fs names with
    | error _ => exact ih (n + 1)
    | ok p =>
      simp only [Bool.false_eq_true, if_false]
      by_cases hlen : 1 < p.length
      · simp only [if_pos hlen]
        have hacc : ∀ a q, accepts a q = .ok () := fun _ _ => rfl
        rw [hacc]
        cases hd : draw (saveFig.map fun b => fileName b figext n) p with
        | error err => exact .inl ⟨[], _, _, err, rfl, by simp, hd, rfl, rfl⟩
        | ok u =>
          rcases ih (if saveFig.isSome then n + 1 else n) with ⟨before, f, after, err, h1, h2, h3, h4, h5⟩ | ⟨h1, h2⟩
          · refine .inl ⟨(saveFig.map fun b => fileName b figext n, p) :: before, f, after, err, by simp only; rw [h1]; rfl, ?_, h3, by simp only; rw [h4], h5⟩
            intro f' hf'
            rcases List.mem_cons.mp hf' with rfl | hf'
            · exact hd
            · exact h2 f' hf'
          · refine .inr ⟨?_, by rw [h2]⟩
            intro f' hf'
            rcases List.mem_cons.mp hf' with rfl | hf'
            · exact hd
            · exact h1 f' hf'
      · simp only [if_neg hlen]
        rcases ih (if saveFig.isSome then n + 1 else n) with ⟨before, f, after, err, h1, h2, h3, h4, h5⟩ | ⟨h1, h2⟩
        · exact .inl ⟨before, f, after, err, h1, h2, h3, h4, h5⟩
        · exact .inr ⟨h1, by rw [h2]⟩

/-- **C117, saving fails and takes the old file away.** If interfaces are to be saved and some group can be averaged, then the call raises `KeyError`, returns nothing and has written nothing, and
a file at the place of the first such output has been renamed. -/
theorem C117_save_counterexample (text : γ → Text) (draw : Option Text → List Point → Except Err Unit) (fs : FS γ) (dir : Dir) (base output : Text) (hout : output ≠ []) (g : ℕ) (hg : 1 ≤ g)
    (saveFig : Option Text) (figext ext : Text) (b : ℤ) (e : Option ℤ) (k : ℕ) (hk : ∀ i, i < k → Complete dir base ext b e g false i) (hk' : ¬ Complete dir base ext b e g false k)
    (i : ℕ) (hi : i < k) (p : List Point) (hp : IsAverageOf text fs (groupFiles base ext b g false i) p) (hfirst : ∀ i', i' < i → ∀ q, ¬ IsAverageOf text fs (groupFiles base ext b g false i') q) :
    ∃ (start : ℤ) (fs' : FS γ), b ≤ start * g ∧ (start - 1) * g < b ∧
      viewSeries text draw fs dir base g output saveFig figext ext b e = ⟨fs', [], [], .error .keyError⟩ ∧ fs'.get? (splitPath (fileName output ext (start + i))) = none ∧
      ∀ c, fs.get? (splitPath (fileName output ext (start + i))) = some c → ∃ n, fs'.get? (backupPath (splitPath (fileName output ext (start + i))) n) = some c := by
  obtain ⟨start, -, h2, h3⟩ := groups_found dir base output ext none g hg false b e k hk hk'
  obtain ⟨a1, a2⟩ := h2 rfl
  obtain ⟨fs', f1, f2, f3⟩ := C06_prepare_path_safe fs (splitPath (fileName output ext (start + i)))
  refine ⟨start, fs', a1, a2, ?_, f2, ?_⟩
  · unfold viewSeries
    rw [h3, decide_eq_true hout, List.range_eq_range']
    have key : ∀ (m i0 : ℕ) (n : ℤ), i0 ≤ i → i < i0 + m →
        viewLoop text draw true saveFig figext fs n ((List.range' i0 m).map fun i : ℕ => (groupFiles base ext b g false i, fileName output (Option.getD none ext) (start + i))) =
          ⟨fs', [], [], .error .keyError⟩ := by
      intro m
      induction m with
      | zero => intro i0 n h1 h2; omega
      | succ m ih =>
        intro i0 n h1 h2
        rw [List.range'_succ, List.map_cons, viewLoop]
        rcases Nat.eq_or_lt_of_le h1 with rfl | hlt
        · rw [(groupInterface_ok _ _ _ _).mpr hp]
          simp only [if_true, Option.getD_none, saveAverage, f1]
        · cases hgi : groupInterface text fs (groupFiles base ext b g false i0) with
          | error _ => exact ih (i0 + 1) (n + 1) hlt (by omega)
          | ok q => exact absurd ((groupInterface_ok _ _ _ _).mp hgi) (hfirst i0 hlt q)
    exact key k 0 _ (Nat.zero_le _) (by simpa using hi)
  · intro c hc
    rcases f3 with ⟨h, -⟩ | ⟨c', n, h1, -, -, -, -, h6, -⟩
    · rw [hc] at h; cases h
    · rw [hc] at h1; cases h1; exact ⟨n, h6⟩

/-! ## C118 -/

/-- **C118.** In the frames of `combine_interfaces` the entry of height `y` and interface `k` is the position of the left (right) edge of interface `k` at that height, and NaN if it has none there. -/
theorem C118_frames (layers : List (List (ℚ × ℚ × ℚ))) (h : ∀ t ∈ layers, (t.map fun e => e.2.2).Nodup) (y : ℚ) (k : ℕ) :
    let c := combineInterfaces (layers.map fun t => (fromLayers t).map Point.x) (layers.map fun t => (fromLayers t).map Point.y)
    (∀ x, c.1 y k = some x ↔ ∃ t, layers[k]? = some t ∧ ∃ e ∈ t, e.2.2 = y ∧ e.1 = x) ∧
    (∀ x, c.2 y k = some x ↔ ∃ t, layers[k]? = some t ∧ ∃ e ∈ t, e.2.2 = y ∧ e.2.1 = x) := by
  have edges : ∀ pts : List Point, ((pts.map Point.y).take ((pts.map Point.x).length / 2)).zip ((pts.map Point.x).take ((pts.map Point.x).length / 2)) = (sides pts).1 ∧
      ((pts.map Point.y).drop ((pts.map Point.x).length / 2)).zip ((pts.map Point.x).drop ((pts.map Point.x).length / 2)) = (sides pts).2 := by
    intro pts
    unfold sides
    simp only [List.length_map, ← List.map_take, ← List.map_drop, List.zip_map']
    exact ⟨trivial, trivial⟩
  have h1 : (allEdges (layers.map fun t => (fromLayers t).map Point.x) (layers.map fun t => (fromLayers t).map Point.y)).1 = layers.map fun t => t.map fun e => (e.2.2, e.1) := by
    unfold allEdges
    simp only [List.zipWith_map, List.zipWith_self]
    refine List.map_congr_left fun t _ => ?_
    rw [(edges _).1, sides_fromLayers]
  have h2 : (allEdges (layers.map fun t => (fromLayers t).map Point.x) (layers.map fun t => (fromLayers t).map Point.y)).2 = layers.map fun t => (t.map fun e => (e.2.2, e.2.1)).reverse := by
    unfold allEdges
    simp only [List.zipWith_map, List.zipWith_self]
    refine List.map_congr_left fun t _ => ?_
    rw [(edges _).2, sides_fromLayers]
  simp only [combineInterfaces, frame, h1, h2, List.getElem?_map]
  constructor
  · intro x
    cases hk : layers[k]? with
    | none => simp
    | some t =>
      have hn := h t (List.mem_of_getElem? hk)
      simp only [Option.map_some, Option.bind_some, Option.some.injEq, exists_eq_left']
      rw [lookup_eq_some_iff (by rw [List.map_map]; exact hn)]
      simp only [List.mem_map, Prod.mk.injEq]
  · intro x
    cases hk : layers[k]? with
    | none => simp
    | some t =>
      have hn := h t (List.mem_of_getElem? hk)
      simp only [Option.map_some, Option.bind_some, Option.some.injEq, exists_eq_left']
      rw [lookup_eq_some_iff (by rw [List.map_reverse, List.nodup_reverse, List.map_map]; exact hn)]
      simp only [List.mem_reverse, List.mem_map, Prod.mk.injEq]

/-! ## Examples -/

/-- The file of an interface of two layers, one that cannot be read, and one more. -/
def exView : FS Text := [((".".toList, "a00003.xvg".toList), interfaceFile (exHead []) [⟨0, 0⟩, ⟨1, 1⟩, ⟨5, 1⟩, ⟨6, 0⟩]), ((".".toList, "a00004.xvg".toList), "x".toList),
  ((".".toList, "a00005.xvg".toList), interfaceFile (exHead []) [⟨0, 0⟩, ⟨6, 0⟩]), ((".".toList, "o00003.xvg".toList), "kept".toList)]

def exViewDir : Dir := ["a00003.xvg".toList, "a00004.xvg".toList, "a00005.xvg".toList, "o00003.xvg".toList]

example : let v := viewSeries id accepts exView exViewDir "a".toList 1 [] (some "f".toList) ".png".toList ".xvg".toList 3 none
    v.interfaces = [[⟨0, 0⟩, ⟨1, 1⟩, ⟨5, 1⟩, ⟨6, 0⟩], [⟨0, 0⟩, ⟨6, 0⟩]] ∧
    v.figures = [(some "f00003.png".toList, [⟨0, 0⟩, ⟨1, 1⟩, ⟨5, 1⟩, ⟨6, 0⟩]), (some "f00005.png".toList, [⟨0, 0⟩, ⟨6, 0⟩])] ∧ v.outcome = .ok () := by
  refine ⟨?_, ?_, ?_⟩ <;> decide +kernel

/-- The hypotheses of the theorems on these files. -/
example : (∀ i, i < 3 → Complete exViewDir "a".toList ".xvg".toList 3 none 1 false i) ∧ ¬ Complete exViewDir "a".toList ".xvg".toList 3 none 1 false 3 ∧
    IsAverageOf id exView (groupFiles "a".toList ".xvg".toList 3 1 false 0) [⟨0, 0⟩, ⟨1, 1⟩, ⟨5, 1⟩, ⟨6, 0⟩] := by
  refine ⟨?_, ?_, ?_⟩
  · intro i hi j hj
    interval_cases j
    refine ⟨?_, by simp⟩
    interval_cases i <;> decide +kernel
  · intro h
    have := (h 0 (by norm_num)).1
    revert this
    decide +kernel
  · rw [← groupInterface_ok]
    decide +kernel

example : (viewSeries id accepts exView exViewDir "a".toList 1 "o".toList none ".png".toList ".xvg".toList 3 none).outcome = .error .keyError ∧
    (viewSeries id accepts exView exViewDir "a".toList 1 "o".toList none ".png".toList ".xvg".toList 3 none).fs.get? (".".toList, "o00003.xvg".toList) = none := by
  refine ⟨?_, ?_⟩ <;> decide +kernel

example : (combineInterfaces [[0, 1, 5, 6], [2, 7]] [[0, 1, 1, 0], [1, 1]]).1 1 0 = some 1 ∧ (combineInterfaces [[0, 1, 5, 6], [2, 7]] [[0, 1, 1, 0], [1, 1]]).1 0 1 = none ∧
    (combineInterfaces [[0, 1, 5, 6], [2, 7]] [[0, 1, 1, 0], [1, 1]]).2 1 1 = some 7 := by
  refine ⟨?_, ?_, ?_⟩ <;> decide +kernel

end Strata.InterfaceView
