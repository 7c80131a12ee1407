import Verif.Spec.Figure
import Verif.Props.Commands
import Mathlib.Tactic.Ring
/-! # C151, C152, C153: figures -/
namespace Strata.Figure
open Strata Strata.Commands

theorem foldl_remove (l : List String) (k : Kw) (n : String) :
    (l.foldl remove k).lookup n = if n ∈ l then none else k.lookup n := by
  induction l generalizing k with
  | nil => simp
  | cons a l ih =>
    rw [List.foldl_cons, ih, lookup_remove]
    by_cases h : n ∈ l
    · simp [h]
    · by_cases h' : n = a <;> simp [h, h']

theorem rest_lookup (k : Kw) (n : String) :
    (popFigure k).2.lookup n = if n ∈ figureOptions then none else k.lookup n := by
  have hm : keyDefaults.map Prod.fst = figureOptions := by decide
  have hg : ∀ l : Kw, l.foldl (fun k d => remove k d.1) k = (l.map Prod.fst).foldl remove k := by
    intro l
    rw [List.foldl_map]
  unfold popFigure
  rw [hg, hm, foldl_remove]

theorem farg_eq (k : Kw) (n : String) (d : Arg) (h : keyDefaults.lookup n = some d) :
    farg (popFigure k).1 n = (k.lookup n).getD d := by
  have := lookup_parsed keyDefaults k n
  unfold farg
  rw [show (popFigure k).1 = parsed keyDefaults k from rfl, this, h]
  rfl

theorem pictures_append_plain (i : Option (ℚ × ℚ)) (l m : List Act) (h : ∀ a ∈ l, 0 < stage a ∧ stage a ≠ 13) :
    pictures i (l ++ m) = pictures i m := by
  induction l with
  | nil => rfl
  | cons a l ih =>
    have ha := h a (by simp)
    have ih' := ih fun b hb => h b (by simp [hb])
    cases a <;> simp_all [pictures, stage]

theorem stages_if (p : Prop) [Decidable p] (a : Act) (h : 0 < stage a ∧ stage a ≠ 13) :
    ∀ b ∈ (if p then [a] else []), 0 < stage b ∧ stage b ≠ 13 := by
  intro b hb
  split at hb
  · rw [List.mem_singleton] at hb; subst hb; exact h
  · simp at hb

theorem pictures_decorations (f : Kw) (i : Option (ℚ × ℚ)) (d : ℚ) (hd : farg f "dpi" = .num d) :
    pictures i (decorations f) =
      if farg f "save_fig" ≠ .none then [⟨farg f "save_fig", i.map fun s => (s.1 * d, s.2 * d)⟩] else [] := by
  unfold decorations
  simp only [List.append_assoc]
  rw [pictures_append_plain _ _ _ (by intro a ha; simp only [List.mem_cons, List.not_mem_nil, or_false] at ha; rcases ha with rfl | rfl | rfl <;> simp [stage]),
    pictures_append_plain _ _ _ (stages_if _ _ (by decide)), pictures_append_plain _ _ _ (stages_if _ _ ⟨by simp [stage], by simp [stage]⟩),
    pictures_append_plain _ _ _ (by intro a ha; simp only [List.mem_cons, List.not_mem_nil, or_false] at ha; rcases ha with rfl | rfl <;> simp [stage]),
    pictures_append_plain _ _ _ (stages_if _ _ ⟨by simp [stage], by simp [stage]⟩), pictures_append_plain _ _ _ (stages_if _ _ ⟨by simp [stage], by simp [stage]⟩),
    pictures_append_plain _ _ _ (stages_if _ _ (by decide)), pictures_append_plain _ _ _ (stages_if _ _ (by decide)),
    pictures_append_plain _ _ _ (by intro a ha; simp only [List.mem_singleton] at ha; subst ha; decide)]
  have hend : pictures i ((if truthy (farg f "show") = true then [Act.show_] else []) ++ if truthy (farg f "clf") = true then [Act.clear] else []) = [] := by
    split <;> split <;> rfl
  by_cases hs : farg f "save_fig" ≠ .none
  · rw [if_pos hs, if_pos hs, hd, List.singleton_append]
    simp only [pictures, hend]
  · rw [if_neg hs, if_neg hs, List.nil_append, hend]

/-- One map: the pictures of its figure. -/
theorem pictures_map (k : Kw) (size : Option (ℚ × ℚ)) (d : ℚ) (p : Arg) (hdims : Dims k size)
    (hp : k.lookup "save_fig" = some p) (hpn : p ≠ .none) (hd : Dpi k d) :
    ∃ acts, mapFigure k = .ok acts ∧ (∀ i, pictures i acts = [⟨p, size.map fun s => (s.1 * d / 300, s.2 * d / 300)⟩]) := by
  have h1 : (popFigure k).2.lookup "dpi" = none := by rw [rest_lookup, if_pos (by decide)]
  have h2 : (popFigure k).2.lookup "dims" = k.lookup "dims" := by rw [rest_lookup, if_neg (by decide)]
  have hc : createFigure (popFigure k).2 = .ok [.newFigure (size.map fun s => (s.1 / 300, s.2 / 300)) (.num 300)] := by
    unfold createFigure
    rw [h1, h2]
    rcases hdims with ⟨w, h, e, rfl⟩ | ⟨e, rfl⟩
    · rw [e]
      simp [divBy, bind, Except.bind, pure, Except.pure]
    · rw [e]
      rfl
  have hf1 : farg (popFigure k).1 "save_fig" = p := by rw [farg_eq k _ .none (by decide), hp]; rfl
  have hf2 : farg (popFigure k).1 "dpi" = .num d := by
    rw [farg_eq k _ (.num 150) (by decide)]
    rcases hd with e | ⟨e, rfl⟩ <;> rw [e] <;> rfl
  refine ⟨_, by unfold mapFigure graph drawMap; simp only [hc]; rfl, ?_⟩
  intro i
  simp only [List.cons_append, List.nil_append, pictures]
  rw [pictures_decorations _ _ d hf2, hf1, if_pos hpn]
  have e : ((size.map fun s => (s.1 / 300, s.2 / 300)).map fun s => (s.1 * d, s.2 * d)) = size.map fun s : ℚ × ℚ => (s.1 * d / 300, s.2 * d / 300) := by
    cases size with
    | none => rfl
    | some s =>
      simp only [Option.map_some, Option.some.injEq, Prod.mk.injEq]
      constructor <;> ring
  rw [e]

/-! ## C151 -/

/-- **C151, the code.** A figure with dimensions `w` by `h` is saved with `dpi / 300` times as many pixels: the dimensions are divided by 300 whatever the resolution is. -/
theorem C151_as_coded (k : Kw) (w h d : ℚ) (p : Arg) (hdims : k.lookup "dims" = some (.pair (some w) (some h)))
    (hp : k.lookup "save_fig" = some p) (hpn : p ≠ .none) (hd : Dpi k d) :
    ∃ acts, mapFigure k = .ok acts ∧ pictures none acts = [⟨p, some (w * d / 300, h * d / 300)⟩] := by
  obtain ⟨acts, h1, h2⟩ := pictures_map k (some (w, h)) d p (.inl ⟨w, h, hdims, rfl⟩) hp hpn hd
  exact ⟨acts, h1, h2 none⟩

/-- **C151 (partial).** At a resolution of 300 the saved figure has the dimensions asked for.  Missing: every other resolution, for which this is false (`C151_only_300`). -/
theorem C151_pixels_partial (k : Kw) (w h : ℚ) (p : Arg) (hdims : k.lookup "dims" = some (.pair (some w) (some h)))
    (hp : k.lookup "save_fig" = some p) (hpn : p ≠ .none) (hd : k.lookup "dpi" = some (.num 300)) :
    ∃ acts, mapFigure k = .ok acts ∧ pictures none acts = [⟨p, some (w, h)⟩] := by
  obtain ⟨acts, h1, h2⟩ := C151_as_coded k w h 300 p hdims hp hpn (.inl hd)
  refine ⟨acts, h1, ?_⟩
  rw [h2]
  norm_num

/-- **C151, only there.** With any other resolution no dimension other than zero is kept. -/
theorem C151_only_300 (k : Kw) (w h d : ℚ) (p : Arg) (hdims : k.lookup "dims" = some (.pair (some w) (some h)))
    (hp : k.lookup "save_fig" = some p) (hpn : p ≠ .none) (hd : Dpi k d) (hw : 0 < w) (hh : 0 < h) (acts : List Act) (ha : mapFigure k = .ok acts) :
    (⟨p, some (w, h)⟩ ∈ pictures none acts ↔ d = 300) ∧ ∀ q ∈ pictures none acts, ∀ a b, q.pixels = some (a, b) → d ≠ 300 → a ≠ w ∧ b ≠ h := by
  obtain ⟨acts', h1, h2⟩ := C151_as_coded k w h d p hdims hp hpn hd
  rw [ha, Except.ok.injEq] at h1
  subst h1
  rw [h2]
  have key : ∀ v : ℚ, 0 < v → (v * d / 300 = v ↔ d = 300) := by
    intro v hv
    rw [div_eq_iff (by norm_num), mul_comm, mul_comm v 300, mul_left_inj' hv.ne']
  constructor
  · simp only [List.mem_singleton, Picture.mk.injEq, true_and, Option.some.injEq, Prod.mk.injEq]
    constructor
    · rintro ⟨e, -⟩; exact (key w hw).mp e.symm
    · rintro rfl; constructor <;> ring
  · intro q hq a b hab hne
    rw [List.mem_singleton] at hq
    subst hq
    simp only [Option.some.injEq, Prod.mk.injEq] at hab
    obtain ⟨rfl, rfl⟩ := hab
    exact ⟨fun e => hne ((key w hw).mp e), fun e => hne ((key h hh).mp e)⟩

theorem lookup_setDefault (k : Kw) (m n : String) (v : Arg) (h : n ≠ m) : (setDefault k m v).lookup n = k.lookup n := by
  unfold setDefault
  split
  · rfl
  · have hb : (n == m) = false := by simpa using h
    rw [List.lookup_append]
    simp [List.lookup, hb]

/-- The options every map is drawn with. -/
def mapOptions (kwargs : Kw) : Kw :=
  setDefault (setDefault (setDefault (["label", "type", "cutoff", "cutoff_label"].foldl remove kwargs) "axis" (.text "scaled")) "noaxis" (.bool true)) "coord_labels" (.list ["X", "Y"])

theorem mapOptions_lookup (k : Kw) (n : String) (h : n ∉ ["axis", "noaxis", "coord_labels", "label", "type", "cutoff", "cutoff_label"]) :
    (mapOptions k).lookup n = k.lookup n := by
  simp only [List.mem_cons, List.not_mem_nil, or_false, not_or] at h
  obtain ⟨h1, h2, h3, h4⟩ := h
  unfold mapOptions
  rw [lookup_setDefault _ _ _ _ h3, lookup_setDefault _ _ _ _ h2, lookup_setDefault _ _ _ _ h1, foldl_remove, if_neg (by simp [h4])]

theorem mapM_const {α : Type} (n : ℕ) (r : Except Err α) (a : α) (h : r = .ok a) :
    (List.range n).mapM (fun _ : ℕ => r) = .ok (List.replicate n a) := by
  subst h
  have : ∀ l : List ℕ, l.mapM (fun _ : ℕ => (Except.ok a : Except Err α)) = .ok (List.replicate l.length a) := by
    intro l
    induction l with
    | nil => rfl
    | cons b l ih => rw [List.mapM_cons, ih]; rfl
  rw [this, List.length_range]

theorem pictures_save_first (acts rest : List Act) (q : List Picture) (h : ∀ i, pictures i acts = q) (hrest : ∀ i, pictures i rest = r) :
    ∀ i, pictures i (acts ++ rest) = q ++ r := by
  intro i
  rw [← h i]
  clear h
  induction acts generalizing i with
  | nil => simp [pictures, hrest]
  | cons a acts ih =>
    cases a with
    | save p d t =>
      cases d <;> simp [pictures, ih]
    | _ => simp [pictures, ih]

/-- The figures of a series. -/
theorem pictures_maps (n : ℕ) (k : Kw) (size : Option (ℚ × ℚ)) (d : ℚ) (p : Arg) (hdims : Dims k size)
    (hp : k.lookup "save_fig" = some p) (hpn : p ≠ .none) (hd : Dpi k d) :
    ∃ acts, mapFigures n k = .ok acts ∧ pictures none acts = List.replicate n ⟨p, size.map fun s => (s.1 * d / 300, s.2 * d / 300)⟩ := by
  have hd' : Dpi (mapOptions k) d := by
    unfold Dpi at hd ⊢
    rw [mapOptions_lookup k "dpi" (by decide)]
    exact hd
  have hdims' : Dims (mapOptions k) size := by
    unfold Dims at hdims ⊢
    rw [mapOptions_lookup k "dims" (by decide)]
    exact hdims
  obtain ⟨acts, h1, h2⟩ := pictures_map (mapOptions k) size d p hdims' (by rw [mapOptions_lookup k _ (by decide), hp]) hpn hd'
  refine ⟨((List.replicate n acts).map fun f => f ++ [.clear]).flatten, ?_, ?_⟩
  · unfold mapFigures
    have := mapM_const n (mapFigure (mapOptions k)) acts h1
    unfold mapOptions at this
    simp only
    rw [this]
    rfl
  · have key : ∀ n i, pictures i ((List.replicate n acts).map fun f => f ++ [Act.clear]).flatten =
        List.replicate n ⟨p, size.map fun s => (s.1 * d / 300, s.2 * d / 300)⟩ := by
      intro n
      induction n with
      | zero => intro i; rfl
      | succ n ih =>
        intro i
        rw [List.replicate_succ, List.map_cons, List.flatten_cons, List.replicate_succ, List.append_assoc]
        exact pictures_save_first acts _ [_] h2 (pictures_save_first [Act.clear] _ [] (fun _ => rfl) ih) i
    exact key n none

/-- **C151, counterexample.** The command `view contour`, which has no option for the resolution, saves every figure with half the width and half the height asked for. -/
theorem C151_contour_counterexample (files : List String) (given : Kw) (w h : ℚ) (path : String)
    (hdims : given.lookup "dims" = some (.pair (some w) (some h))) (hp : given.lookup "save_fig" = some (.text path)) :
    ∃ acts, mapFigures files.length (contourCli files (parsed contourOptions given)).kwargs = .ok acts ∧
      pictures none acts = List.replicate files.length ⟨.text path, some (w / 2, h / 2)⟩ := by
  have hk : ∀ n, n ≠ "type" → (contourCli files (parsed contourOptions given)).kwargs.lookup n = (contourOptions.lookup n).map fun d => (given.lookup n).getD d := by
    intro n hn
    have hb : (n == "type") = false := by simpa using hn
    rw [← lookup_parsed]
    unfold contourCli
    simp [List.lookup_cons, hb]
  obtain ⟨acts, h1, h2⟩ := pictures_maps files.length (contourCli files (parsed contourOptions given)).kwargs (some (w, h)) 150 (.text path)
    (.inl ⟨w, h, by rw [hk _ (by decide), hdims]; rfl, rfl⟩) (by rw [hk _ (by decide), hp]; rfl) (by simp)
    (.inr ⟨by rw [hk _ (by decide)]; rfl, rfl⟩)
  refine ⟨acts, h1, ?_⟩
  rw [h2]
  congr 3
  simp only [Option.map_some, Option.some.injEq, Prod.mk.injEq]
  constructor <;> ring

/-! ## C152 -/

/-- **C152 (partial).** The figure of a single map is saved to the path, as it is for the map alone.  Missing: more than one map (`C152_counterexample`). -/
theorem C152_single_partial (k : Kw) (size : Option (ℚ × ℚ)) (d : ℚ) (p : Arg) (hdims : Dims k size)
    (hp : k.lookup "save_fig" = some p) (hpn : p ≠ .none) (hd : Dpi k d) :
    ∃ acts, mapFigures 1 k = .ok acts ∧ ∃ q, pictures none acts = [q] ∧ q.path = p := by
  obtain ⟨acts, h1, h2⟩ := pictures_maps 1 k size d p hdims hp hpn hd
  exact ⟨acts, h1, _, h2, rfl⟩

/-- **C152, counterexample.** The figures of a series of maps are all saved to the same path, one over the other: of any number of maps only the last figure is left. -/
theorem C152_counterexample (n : ℕ) (k : Kw) (size : Option (ℚ × ℚ)) (d : ℚ) (p : Arg) (hdims : Dims k size)
    (hp : k.lookup "save_fig" = some p) (hpn : p ≠ .none) (hd : Dpi k d) :
    ∃ acts, mapFigures n k = .ok acts ∧ (pictures none acts).length = n ∧ ∀ q ∈ pictures none acts, q.path = p := by
  obtain ⟨acts, h1, h2⟩ := pictures_maps n k size d p hdims hp hpn hd
  refine ⟨acts, h1, by rw [h2, List.length_replicate], ?_⟩
  intro q hq
  rw [h2] at hq
  rw [(List.mem_replicate.mp hq).2]

/-! ## C153 -/

theorem mem_if {p : Prop} [Decidable p] {a b : Act} : b ∈ (if p then [a] else []) ↔ p ∧ b = a := by
  split <;> simp_all

theorem pairwise_if {p : Prop} [Decidable p] {a : Act} {l : List Act} (h : ∀ b ∈ l, stage a < stage b) (hl : l.Pairwise fun a b => stage a < stage b) :
    ((if p then [a] else []) ++ l).Pairwise fun a b => stage a < stage b := by
  split
  · exact List.pairwise_cons.mpr ⟨h, hl⟩
  · exact hl

theorem decorations_ordered (f : Kw) : (decorations f).Pairwise fun a b => stage a < stage b := by
  unfold decorations
  simp only [List.append_assoc, List.cons_append, List.nil_append]
  refine List.pairwise_cons.mpr ⟨?_, List.pairwise_cons.mpr ⟨?_, List.pairwise_cons.mpr ⟨?_, pairwise_if ?_ (pairwise_if ?_ (List.pairwise_cons.mpr ⟨?_, List.pairwise_cons.mpr ⟨?_,
    pairwise_if ?_ (pairwise_if ?_ (pairwise_if ?_ (pairwise_if ?_ (List.pairwise_cons.mpr ⟨?_, pairwise_if ?_ (pairwise_if ?_ ?_)⟩))))⟩⟩))⟩⟩⟩
  case refine_15 => split <;> simp
  all_goals
    intro b hb
    simp only [List.mem_cons, List.mem_append, mem_if] at hb
    rcases hb with hb
    revert hb
    cases b <;> simp [stage]

/-- **C153.** A figure: the drawing function gets every option that does not concern the figure, and no other; then each decoration asked for is made, once and in the order of the
stages (so limits are set after the mode of the axes, everything is in place when the figure is saved, and it is shown after it was saved and cleared last); texts, limits, colours and
the resolution are those given, or the documented defaults; the figure is saved exactly if a path is given, shown and cleared unless asked not to. -/
theorem C153_figure (draw : Kw → Except Err (List Act)) (kwargs : Kw) (acts : List Act) (h : graph draw kwargs = .ok acts) :
    ∃ rest drawn deco, draw rest = .ok drawn ∧ acts = drawn ++ deco ∧
      (∀ n, rest.lookup n = if n ∈ figureOptions then none else kwargs.lookup n) ∧
      deco.Pairwise (fun a b => stage a < stage b) ∧
      (∀ v, .title v ∈ deco ↔ v = (kwargs.lookup "title").getD (.text "")) ∧
      (∀ v, .xlabel v ∈ deco ↔ v = (kwargs.lookup "xlabel").getD (.text "")) ∧
      (∀ v, .ylabel v ∈ deco ↔ v = (kwargs.lookup "ylabel").getD (.text "")) ∧
      (∀ v, .xlim v ∈ deco ↔ v = (kwargs.lookup "xlim").getD .none) ∧
      (∀ v, .ylim v ∈ deco ↔ v = (kwargs.lookup "ylim").getD .none) ∧
      (∀ v, .axis v ∈ deco ↔ truthy v = true ∧ v = (kwargs.lookup "axis").getD .none) ∧
      (∀ v, .colormap v ∈ deco ↔ v ≠ .none ∧ v = (kwargs.lookup "colormap").getD .none) ∧
      (∀ l t tl, .colorbar l t tl ∈ deco ↔ truthy ((kwargs.lookup "colorbar").getD (.bool false)) = true ∧ l = ((kwargs.lookup "cbarlabel").filter fun v => truthy v) ∧
        t = ((kwargs.lookup "cbarticks").filter fun v => truthy v) ∧ tl = ((kwargs.lookup "cbarticklabels").filter fun v => truthy v)) ∧
      (.logScales ∈ deco ↔ truthy ((kwargs.lookup "loglog").getD (.bool false)) = true) ∧
      (.legend ∈ deco ↔ truthy ((kwargs.lookup "legend").getD (.bool false)) = true) ∧
      (.axesOff ∈ deco ↔ truthy ((kwargs.lookup "noaxis").getD (.bool false)) = true) ∧
      (∀ p d t, .save p d t ∈ deco ↔ p ≠ .none ∧ p = (kwargs.lookup "save_fig").getD .none ∧ d = (kwargs.lookup "dpi").getD (.num 150) ∧
        t = (kwargs.lookup "transparent").getD (.bool false)) ∧
      (.show_ ∈ deco ↔ truthy ((kwargs.lookup "show").getD (.bool true)) = true) ∧
      (.clear ∈ deco ↔ truthy ((kwargs.lookup "clf").getD (.bool true)) = true) := by
  unfold graph at h
  simp only at h
  cases hd : draw (popFigure kwargs).2 with
  | error e => rw [hd] at h; simp [bind, Except.bind] at h
  | ok drawn =>
    rw [hd] at h
    simp only [bind, Except.bind, pure, Except.pure, Except.ok.injEq] at h
    refine ⟨(popFigure kwargs).2, drawn, decorations (popFigure kwargs).1, hd, h.symm, rest_lookup kwargs, decorations_ordered _, ?_⟩
    have hopt : ∀ n, keyDefaults.lookup n = some .none → ((kwargs.lookup n).filter fun v => truthy v) = ifTrue (farg (popFigure kwargs).1 n) := by
      intro n hn
      rw [farg_eq kwargs n .none hn]
      cases kwargs.lookup n with
      | none => rfl
      | some v => simp [Option.filter, ifTrue]
    rw [hopt "cbarlabel" (by decide), hopt "cbarticks" (by decide), hopt "cbarticklabels" (by decide), ← farg_eq kwargs "colorbar" (.bool false) (by decide)]
    rw [← farg_eq kwargs "title" (.text "") (by decide), ← farg_eq kwargs "xlabel" (.text "") (by decide), ← farg_eq kwargs "ylabel" (.text "") (by decide),
      ← farg_eq kwargs "xlim" .none (by decide), ← farg_eq kwargs "ylim" .none (by decide), ← farg_eq kwargs "axis" .none (by decide),
      ← farg_eq kwargs "colormap" .none (by decide), ← farg_eq kwargs "loglog" (.bool false) (by decide), ← farg_eq kwargs "legend" (.bool false) (by decide),
      ← farg_eq kwargs "noaxis" (.bool false) (by decide), ← farg_eq kwargs "save_fig" .none (by decide), ← farg_eq kwargs "dpi" (.num 150) (by decide),
      ← farg_eq kwargs "transparent" (.bool false) (by decide), ← farg_eq kwargs "show" (.bool true) (by decide), ← farg_eq kwargs "clf" (.bool true) (by decide)]
    generalize (popFigure kwargs).1 = f
    unfold decorations
    simp only [List.mem_append, List.mem_cons, mem_if, List.not_mem_nil, reduceCtorEq, Act.title.injEq, Act.xlabel.injEq, Act.ylabel.injEq, Act.xlim.injEq, Act.ylim.injEq,
      Act.axis.injEq, Act.colormap.injEq, Act.save.injEq, Act.colorbar.injEq, and_false, or_false, false_or, and_true, implies_true, true_and]
    refine ⟨?_, ?_, ?_⟩
    · intro v; constructor <;> rintro ⟨a, rfl⟩ <;> exact ⟨a, rfl⟩
    · intro v; constructor <;> rintro ⟨a, rfl⟩ <;> exact ⟨a, rfl⟩
    · intro p d t; constructor <;> rintro ⟨a, rfl, rfl, rfl⟩ <;> exact ⟨a, rfl, rfl, rfl⟩

/-- **C153.** If drawing fails nothing is decorated, saved or shown: the error is passed on. -/
theorem C153_error (draw : Kw → Except Err (List Act)) (kwargs : Kw) (e : Err)
    (h : ∀ rest, (∀ n, rest.lookup n = if n ∈ figureOptions then none else kwargs.lookup n) → draw rest = .error e) : graph draw kwargs = .error e := by
  unfold graph
  simp only
  rw [h _ (rest_lookup kwargs)]
  rfl

/-! ## Cases -/

/-- Options of a figure. -/
def exFigure : Kw := [("dims", .pair (some 1200) (some 600)), ("save_fig", .text "map.png"), ("dpi", .num 300), ("title", .text "Drop"), ("xlim", .pair (some 0) none), ("filled", .bool true)]

example : mapFigure exFigure = .ok [.newFigure (some (4, 2)) (.num 300), .draw [("dims", .pair (some 1200) (some 600)), ("filled", .bool true)], .title (.text "Drop"),
    .xlabel (.text ""), .ylabel (.text ""), .xlim (.pair (some 0) none), .ylim .none, .tightLayout, .save (.text "map.png") (.num 300) (.bool false), .show_, .clear] := by
  decide +kernel

example : exFigure.lookup "dims" = some (.pair (some 1200) (some 600)) ∧ exFigure.lookup "save_fig" = some (.text "map.png") ∧ Arg.text "map.png" ≠ .none ∧
    Dpi exFigure 300 ∧ Dims exFigure (some (1200, 600)) ∧ exFigure.lookup "dpi" = some (.num 300) :=
  ⟨by decide +kernel, by decide +kernel, by decide, .inl (by decide +kernel), .inl ⟨1200, 600, by decide +kernel, rfl⟩, by decide +kernel⟩

example : (match mapFigure exFigure with | .ok a => pictures none a | .error _ => []) = [⟨.text "map.png", some (1200, 600)⟩] ∧
    (match mapFigure (remove exFigure "dpi") with | .ok a => pictures none a | .error _ => []) = [⟨.text "map.png", some (600, 300)⟩] ∧
    (match mapFigures 3 (remove (remove exFigure "dpi") "dims") with | .ok a => pictures none a | .error _ => []) =
      [⟨.text "map.png", none⟩, ⟨.text "map.png", none⟩, ⟨.text "map.png", none⟩] ∧
    mapFigure [("dims", .pair (some 1200) none)] = .error .typeError := by
  refine ⟨?_, ?_, ?_, ?_⟩ <;> decide +kernel

end Strata.Figure
