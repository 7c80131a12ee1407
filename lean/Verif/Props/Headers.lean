import Verif.Spec.Headers
/-!
# C109: the headers of saved files record the options of the data
-/
namespace Strata.Headers
open Strata Strata.SpreadingText Strata.InterfaceText Strata.Spec

theorem lookup_append_none {k l : Kwargs} {n : String} (h : k.lookup n = none) : (k ++ l).lookup n = l.lookup n := by
  rw [List.lookup_append, h]; rfl

theorem lookup_filter (k : Kwargs) (n : String) (p : String → Bool) (hp : p n = true) : (k.filter fun e => p e.1).lookup n = k.lookup n := by
  induction k with
  | nil => rfl
  | cons e k ih =>
    obtain ⟨a, v⟩ := e
    by_cases h : n = a
    · subst h; simp [List.filter_cons, hp]
    · have hb : (n == a) = false := by simpa using h
      by_cases hq : p a = true
      · simp [List.filter_cons, hq, List.lookup_cons, hb, ih]
      · simp [List.filter_cons, hq, List.lookup_cons, hb, ih]

theorem lookup_filter_not (k : Kwargs) (n : String) (p : String → Bool) (hp : p n = false) : (k.filter fun e => p e.1).lookup n = none := by
  induction k with
  | nil => rfl
  | cons e k ih =>
    obtain ⟨a, v⟩ := e
    by_cases h : n = a
    · subst h; simp [List.filter_cons, hp, ih]
    · have hb : (n == a) = false := by simpa using h
      by_cases hq : p a = true
      · simp [List.filter_cons, hq, List.lookup_cons, hb, ih]
      · simp [List.filter_cons, hq, ih]

theorem lookup_without (k : Kwargs) (m n : String) : (without k m).lookup n = if n = m then none else k.lookup n := by
  unfold without
  by_cases h : n = m
  · rw [if_pos h]; exact lookup_filter_not k n (fun a => decide (a ≠ m)) (by simpa using h)
  · rw [if_neg h]; exact lookup_filter k n (fun a => decide (a ≠ m)) (by simpa using h)

theorem lookup_setDefault (k : Kwargs) (m : String) (v : Text) (n : String) :
    (setDefault k m v).lookup n = if n = m then some ((k.lookup m).getD v) else k.lookup n := by
  unfold setDefault
  by_cases h : n = m
  · subst h
    rw [if_pos rfl]
    rcases hl : k.lookup n with _ | w
    · simp [List.lookup_append, hl]
    · simp [hl]
  · rw [if_neg h]
    have hb : (n == m) = false := by simpa using h
    split
    · rfl
    · rw [List.lookup_append]
      rcases k.lookup n with _ | w <;> simp [List.lookup_cons, hb]

theorem lookup_update (a b : Kwargs) (n : String) : (update a b).lookup n = (b.lookup n).or (a.lookup n) := by
  unfold update
  rw [List.lookup_append]
  rcases h : b.lookup n with _ | w
  · simp only [Option.none_or]
    exact lookup_filter a n (fun m => !(b.lookup m).isSome) (by simp [h])
  · simp

/-- **C109, file options.** `begin`, `end` and `ext` are taken out of the options, all four are returned, with values for those which were not given; `outext` stays among the
options. -/
theorem C109_fileopts (k : Kwargs) (n : String) :
    (popFileopts k).1.lookup n = (if n = "begin" then some (given k "begin" "1") else if n = "end" then some (given k "end" "inf") else if n = "ext" then some (given k "ext" "'.dat'")
      else if n = "outext" then some ((k.lookup "outext").getD (given k "ext" "'.dat'")) else none) ∧
    (popFileopts k).2.lookup n = if n = "begin" ∨ n = "end" ∨ n = "ext" then none else k.lookup n := by
  constructor
  · unfold popFileopts given get
    simp only [List.lookup_cons, List.lookup_nil]
    by_cases h1 : n = "begin"
    · subst h1; rfl
    by_cases h2 : n = "end"
    · subst h2; rfl
    by_cases h3 : n = "ext"
    · subst h3; rfl
    by_cases h4 : n = "outext"
    · subst h4; rfl
    have b1 : (n == "begin") = false := by simpa using h1
    have b2 : (n == "end") = false := by simpa using h2
    have b3 : (n == "ext") = false := by simpa using h3
    have b4 : (n == "outext") = false := by simpa using h4
    simp [b1, b2, b3, b4, h1, h2, h3, h4]
  · unfold popFileopts
    simp only [lookup_without]
    by_cases h1 : n = "begin" <;> by_cases h2 : n = "end" <;> by_cases h3 : n = "ext" <;> simp_all

example : popFileopts [("end", "5".toList), ("dt", "0.5".toList), ("outext", "'.map'".toList)] =
    ([("begin", "1".toList), ("end", "5".toList), ("ext", "'.dat'".toList), ("outext", "'.map'".toList)], [("dt", "0.5".toList), ("outext", "'.map'".toList)]) := by decide +kernel

theorem get_eq (k : Kwargs) (n : String) (d : Text) : get k n d = (k.lookup n).getD d := rfl

theorem opts_begin (k : Kwargs) (a : Kwargs) (d : Text) : get (update a (popFileopts k).1) "begin" d = given k "begin" "1" := by
  rw [get_eq, lookup_update, (C109_fileopts k "begin").1]; rfl

theorem opts_end (k : Kwargs) (a : Kwargs) (d : Text) : get (update a (popFileopts k).1) "end" d = given k "end" "inf" := by
  rw [get_eq, lookup_update, (C109_fileopts k "end").1]; rfl

theorem opts_other (k : Kwargs) (a : Kwargs) (n : String) (d : Text) (h : n ≠ "begin" ∧ n ≠ "end" ∧ n ≠ "ext" ∧ n ≠ "outext") :
    get (update a (popFileopts k).1) n d = get a n d := by
  rw [get_eq, lookup_update, (C109_fileopts k n).1, if_neg h.1, if_neg h.2.1, if_neg h.2.2.1, if_neg h.2.2.2]; rfl

theorem left_other (k : Kwargs) (n : String) (d : Text) (h : n ≠ "begin" ∧ n ≠ "end" ∧ n ≠ "ext") : get (popFileopts k).2 n d = get k n d := by
  rw [get_eq, (C109_fileopts k n).2, if_neg (by tauto)]; rfl

theorem given_setDefault (k : Kwargs) (m : String) (v : Text) (n d : String) (h : n ≠ m) : given (setDefault k m v) n d = given k n d := by
  unfold given; rw [lookup_setDefault, if_neg h]

/-- **C109, samples of interfaces.** -/
theorem C109_sample_partial (s : Stamp) (base v d : Text) (k : Kwargs) :
    recorded (sampleHeader s base v d k) "File base path" = some base ∧ recorded (sampleHeader s base v d k) "Variable" = some v ∧
    recorded (sampleHeader s base v d k) "Begin, end" = some (given k "begin" "1" ++ ", ".toList ++ given k "end" "inf") := by
  refine ⟨rfl, rfl, ?_⟩
  have h : sampleHeader s base v d k = sampleHead s.date s.version base v (given k "begin" "1") (given k "end" "inf") (get (update (popFileopts (setDefault k "ext" "'.xvg'".toList)).2
      (popFileopts (setDefault k "ext" "'.xvg'".toList)).1) "dt" "1.0".toList) := by
    unfold sampleHeader
    simp only []
    rw [opts_begin, opts_end, given_setDefault _ _ _ _ _ (by decide), given_setDefault _ _ _ _ _ (by decide)]
  rw [h]
  generalize given k "begin" "1" = b, given k "end" "inf" = e
  rfl

/-- **C109, contact angles.** -/
theorem C109_angle_partial (s : Stamp) (base h d : Text) (k : Kwargs) :
    recorded (angleHeader s base h d k) "File base path" = some base ∧ recorded (angleHeader s base h d k) "Measured at height" = some h ∧
    recorded (angleHeader s base h d k) "Begin, end" = some (given k "begin" "1" ++ ", ".toList ++ given k "end" "inf") := by
  refine ⟨rfl, rfl, ?_⟩
  have h' : angleHeader s base h d k = angleHead s.date s.version base (given k "begin" "1") (given k "end" "inf") h "1.0".toList := by
    unfold angleHeader
    simp only []
    have e1 : get (popFileopts (setDefault k "ext" "'.xvg'".toList)).1 "begin" [] = given k "begin" "1" := by
      rw [get_eq, (C109_fileopts _ "begin").1, if_pos rfl, given_setDefault _ _ _ _ _ (by decide)]; rfl
    have e2 : get (popFileopts (setDefault k "ext" "'.xvg'".toList)).1 "end" [] = given k "end" "inf" := by
      rw [get_eq, (C109_fileopts _ "end").1, if_neg (by decide), if_pos rfl, given_setDefault _ _ _ _ _ (by decide)]; rfl
    rw [e1, e2]
    rfl
  rw [h']
  generalize given k "begin" "1" = b, given k "end" "inf" = e
  rfl

/-- **C109, sampled averages.** -/
theorem C109_average_partial (s : Stamp) (base columns : Text) (o : SeriesOpts) (k : Kwargs) :
    recorded (averageHeader s base columns o k) "Sample data labels" = some o.labels ∧ recorded (averageHeader s base columns o k) "File base path" = some base ∧
    recorded (averageHeader s base columns o k) "Cut-off" = some o.cutoff ∧ recorded (averageHeader s base columns o k) "Cut-off label" = some o.cutoffLabel ∧
    recorded (averageHeader s base columns o k) "Begin, end" = some (given k "begin" "1" ++ ", ".toList ++ given k "end" "inf") := by
  refine ⟨rfl, rfl, rfl, rfl, ?_⟩
  unfold averageHeader
  simp only []
  rw [opts_begin, opts_end]
  generalize given k "begin" "1" = b, given k "end" "inf" = e
  rfl

/-- **C109, samples of the contact line.** -/
theorem C109_contact_line_partial (s : Stamp) (base columns : Text) (o : SeriesOpts) (k : Kwargs) :
    recorded (contactLineHeader s base columns o k) "Sample data labels" = some o.labels ∧ recorded (contactLineHeader s base columns o k) "File base path" = some base ∧
    recorded (contactLineHeader s base columns o k) "Average over # files" = some o.average ∧ recorded (contactLineHeader s base columns o k) "Rolling average" = some o.rolling ∧
    recorded (contactLineHeader s base columns o k) "Cut-off" = some o.cutoff ∧ recorded (contactLineHeader s base columns o k) "Cut-off label" = some o.cutoffLabel ∧
    recorded (contactLineHeader s base columns o k) "Begin, end" = some (given k "begin" "1" ++ ", ".toList ++ given k "end" "inf") := by
  refine ⟨rfl, rfl, rfl, rfl, rfl, rfl, ?_⟩
  unfold contactLineHeader
  simp only []
  rw [opts_begin, opts_end]
  generalize given k "begin" "1" = b, given k "end" "inf" = e
  rfl

/-- **C109, spreading.** Here the time difference is recorded as it is used. -/
theorem C109_spreading_partial (s : Stamp) (base : Text) (k : Kwargs) :
    recorded (spreadingHeader s base k) "File base path" = some base ∧
    recorded (spreadingHeader s base k) "Begin, end" = some (given k "begin" "1" ++ ", ".toList ++ given k "end" "inf") ∧
    recorded (spreadingHeader s base k) "Floor" = some (given k "floor" "None") ∧ recorded (spreadingHeader s base k) "Delta-t" = some (spreadingUsed k).1 ∧
    recorded (spreadingHeader s base k) "Mass cut-off" = some (given k "cutoff" "None") ∧ recorded (spreadingHeader s base k) "Required # of bins" = some (given k "cutoff_bins" "1") := by
  have o : ∀ n d, (n ≠ "begin" ∧ n ≠ "end" ∧ n ≠ "ext" ∧ n ≠ "outext") → n ≠ "save" →
      get (update (without (popFileopts k).2 "save") (popFileopts k).1) n d = get k n d := by
    intro n d h hs
    rw [opts_other k _ n d h, get_eq, lookup_without, if_neg hs]
    exact left_other k n d ⟨h.1, h.2.1, h.2.2.1⟩
  have e : spreadingHeader s base k = headerLines ⟨s.date, s.version, base, given k "begin" "1", given k "end" "inf", given k "floor" "None", (spreadingUsed k).1, given k "cutoff" "None",
      given k "include_radius" "1.0", given k "cutoff_bins" "1"⟩ := by
    unfold spreadingHeader
    simp only []
    rw [opts_begin, opts_end, o _ _ (by decide) (by decide), o _ _ (by decide) (by decide), o _ _ (by decide) (by decide), o _ _ (by decide) (by decide), o _ _ (by decide) (by decide)]
    rfl
  rw [e]
  generalize given k "begin" "1" = b, given k "end" "inf" = en, given k "floor" "None" = f, (spreadingUsed k).1 = d, given k "cutoff" "None" = c, given k "include_radius" "1.0" = r,
    given k "cutoff_bins" "1" = n
  exact ⟨rfl, rfl, rfl, rfl, rfl, rfl⟩

theorem collectHeader_eq (s : Stamp) (dir recenter input output : Text) (k : Kwargs) :
    collectHeader s dir recenter input output k =
      headLines ⟨s.date, s.version, dir, [output], recenter, some (given k "cutoff" "None", given k "cutoff_radius" "None", given k "cutoff_bins" "1")⟩ := by
  have o : ∀ (k' : Kwargs) n, (n ≠ "begin" ∧ n ≠ "end" ∧ n ≠ "ext" ∧ n ≠ "quiet") → (without (popFileopts k').2 "quiet").lookup n = k'.lookup n := by
    intro k' n h
    rw [lookup_without, if_neg h.2.2.2, (C109_fileopts k' n).2, if_neg (by tauto)]
  unfold collectHeader
  simp only []
  rw [o _ "cutoff" (by decide), o _ "cutoff_radius" (by decide), o _ "cutoff_bins" (by decide)]
  simp only [lookup_setDefault]
  rfl

/-- **C109, interfaces.** -/
theorem C109_collect_partial (s : Stamp) (dir recenter input output : Text) (k : Kwargs) :
    recorded (collectHeader s dir recenter input output k) "Recenter" = some recenter ∧
    recorded (collectHeader s dir recenter input output k) "Mass cut-off" = some (given k "cutoff" "None") ∧
    recorded (collectHeader s dir recenter input output k) "Radius cut-off" = some (given k "cutoff_radius" "None") ∧
    recorded (collectHeader s dir recenter input output k) "Required # of bins" = some (given k "cutoff_bins" "1") := by
  rw [collectHeader_eq]
  generalize given k "cutoff" "None" = c, given k "cutoff_radius" "None" = r, given k "cutoff_bins" "1" = n
  exact ⟨rfl, rfl, rfl, rfl⟩

/-- Goes through the lines of a concrete header. -/
macro "comments" : tactic => `(tactic| (repeat (refine List.forall_mem_cons.mpr ⟨rfl, ?_⟩)) <;> exact List.forall_mem_nil _)

/-- All lines are comments, and the date and the version are recorded in lines of their own. -/
def Stamped (s : Stamp) (header : List Text) : Prop :=
  (∀ l ∈ header, l.head? = some '#') ∧ header.findSome? (after? "# Creation date: ".toList) = some s.date ∧
    header.findSome? (after? "# Using module version: ".toList) = some s.version

/-- **C109.** Every header consists of comment lines and records when and with which version the file was made. -/
theorem C109_stamp (s : Stamp) (base a b columns : Text) (o : SeriesOpts) (k : Kwargs) :
    Stamped s (sampleHeader s base a b k) ∧ Stamped s (angleHeader s base a b k) ∧ Stamped s (averageHeader s base columns o k) ∧
      Stamped s (contactLineHeader s base columns o k) ∧ Stamped s (spreadingHeader s base k) ∧ ∀ input output, Stamped s (collectHeader s base a input output k) := by
  refine ⟨?_, ?_, ?_, ?_, ?_, ?_⟩
  · unfold sampleHeader sampleHead
    refine ⟨?_, rfl, rfl⟩
    comments
  · unfold angleHeader angleHead
    refine ⟨?_, rfl, rfl⟩
    comments
  · unfold averageHeader moduleHeader
    refine ⟨List.forall_mem_append.mpr ⟨?_, ?_⟩, rfl, rfl⟩ <;> comments
  · unfold contactLineHeader moduleHeader
    refine ⟨List.forall_mem_append.mpr ⟨?_, ?_⟩, rfl, rfl⟩ <;> comments
  · unfold spreadingHeader headerLines
    refine ⟨?_, rfl, rfl⟩
    comments
  · intro input output
    rw [collectHeader_eq]
    unfold headLines
    refine ⟨?_, rfl, rfl⟩
    unfold optionLines
    refine List.forall_mem_append.mpr ⟨List.forall_mem_append.mpr ⟨List.forall_mem_append.mpr ⟨List.forall_mem_append.mpr ⟨?_, ?_⟩, ?_⟩, ?_⟩, ?_⟩
    all_goals comments

example : Stamped ⟨"Mon".toList, "1".toList⟩ (averageHeader ⟨"Mon".toList, "1".toList⟩ "'/w/a'".toList "M".toList ⟨"M".toList, "0".toList, "M".toList, "1".toList, "1".toList, "False".toList⟩ []) :=
  (C109_stamp ⟨"Mon".toList, "1".toList⟩ _ [] [] _ _ _).2.2.1

/-- What the options below record, for concrete options. -/
example : recorded (spreadingHeader ⟨"Mon".toList, "1".toList⟩ "'/w/a'".toList [("end", "5".toList), ("dt", "0.5".toList), ("cutoff", "30.0".toList)]) "Begin, end" = some "1, 5".toList ∧
    recorded (spreadingHeader ⟨"Mon".toList, "1".toList⟩ "'/w/a'".toList [("end", "5".toList), ("dt", "0.5".toList), ("cutoff", "30.0".toList)]) "Mass cut-off" = some "30.0".toList ∧
    recorded (sampleHeader ⟨"Mon".toList, "1".toList⟩ "'/w/a'".toList "'area'".toList "0.5".toList [("begin", "3".toList)]) "Begin, end" = some "3, inf".toList := by decide +kernel

/-- **C109, time differences are not recorded.** Whatever time difference is given for samples of interfaces, contact angles, averages and the contact line, the header says 1.0
(unless an option `dt`, which sets nothing, is given in addition to `delta_t`). -/
theorem C109_delta_t_counterexample (s : Stamp) (base v d : Text) (o : SeriesOpts) (k : Kwargs) (hk : k.lookup "dt" = none) :
    recorded (sampleHeader s base v d k) "Delta-t" = some "1.0".toList ∧ recorded (angleHeader s base v d k) "Delta-t" = some "1.0".toList ∧
    recorded (averageHeader s base v o k) "Delta-t" = some "1.0".toList ∧ recorded (contactLineHeader s base v o k) "Delta-t" = some "1.0".toList := by
  have e : get (update (popFileopts k).2 (popFileopts k).1) "dt" "1.0".toList = "1.0".toList := by
    rw [opts_other k _ _ _ (by decide), left_other k _ _ (by decide), get_eq, hk]; rfl
  have e' : get (update (popFileopts (setDefault k "ext" "'.xvg'".toList)).2 (popFileopts (setDefault k "ext" "'.xvg'".toList)).1) "dt" "1.0".toList = "1.0".toList := by
    rw [opts_other _ _ _ _ (by decide), left_other _ _ _ (by decide), get_eq, lookup_setDefault, if_neg (by decide), hk]; rfl
  refine ⟨?_, rfl, ?_, ?_⟩
  · have h : recorded (sampleHeader s base v d k) "Delta-t" = some (get (update (popFileopts (setDefault k "ext" "'.xvg'".toList)).2
      (popFileopts (setDefault k "ext" "'.xvg'".toList)).1) "dt" "1.0".toList) := by
      unfold sampleHeader
      simp only []
      generalize get (update _ _) "begin" _ = b, get (update _ _) "end" _ = en, get (update _ _) "dt" _ = dt
      rfl
    rw [h, e']
  · have h : recorded (averageHeader s base v o k) "Delta-t" = some (get (update (popFileopts k).2 (popFileopts k).1) "dt" "1.0".toList) := by
      unfold averageHeader
      simp only []
      generalize get (update _ _) "begin" _ = b, get (update _ _) "end" _ = en, get (update _ _) "dt" _ = dt
      rfl
    rw [h, e]
  · have h : recorded (contactLineHeader s base v o k) "Delta-t" = some (get (update (popFileopts k).2 (popFileopts k).1) "dt" "1.0".toList) := by
      unfold contactLineHeader
      simp only []
      generalize get (update _ _) "begin" _ = b, get (update _ _) "end" _ = en, get (update _ _) "dt" _ = dt
      rfl
    rw [h, e]

/-- **C109, the radius of spreading is not recorded.** Whatever radius the bins are counted in, the header says 1.0. -/
theorem C109_radius_counterexample (s : Stamp) (base r : Text) (k : Kwargs) (hk : k.lookup "include_radius" = none) :
    (spreadingUsed (("cutoff_radius", r) :: k)).2 = r ∧ recorded (spreadingHeader s base (("cutoff_radius", r) :: k)) "Radius cut-off" = some "1.0".toList := by
  refine ⟨rfl, ?_⟩
  have h : recorded (spreadingHeader s base (("cutoff_radius", r) :: k)) "Radius cut-off" =
      some (get (update (without (popFileopts (("cutoff_radius", r) :: k)).2 "save") (popFileopts (("cutoff_radius", r) :: k)).1) "include_radius" "1.0".toList) := by
    unfold spreadingHeader
    simp only []
    generalize get (update _ _) "begin" _ = b, get (update _ _) "end" _ = en, get (update _ _) "floor" _ = f, get (update _ _) "dt" _ = d, get (update _ _) "cutoff" _ = c,
      get (update _ _) "include_radius" _ = i, get (update _ _) "cutoff_bins" _ = n
    rfl
  rw [h, opts_other _ _ _ _ (by decide), get_eq, lookup_without, if_neg (by decide)]
  have := left_other (("cutoff_radius", r) :: k) "include_radius" "1.0".toList (by decide)
  rw [get_eq] at this
  rw [this, get_eq, List.lookup_cons, show (("include_radius" : String) == "cutoff_radius") = false by decide]
  simp only [hk]
  rfl

/-- **C109, input files of interfaces.** The file listed as the only input file is the output file itself, whatever was read. -/
theorem C109_input_counterexample (s : Stamp) (dir recenter input output : Text) (k : Kwargs) :
    inputFiles (collectHeader s dir recenter input output k) = ["#   '".toList ++ output ++ "'".toList] := by
  rw [collectHeader_eq]
  generalize given k "cutoff" "None" = c, given k "cutoff_radius" "None" = r, given k "cutoff_bins" "1" = n
  rfl

end Strata.Headers
