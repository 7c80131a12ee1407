import Verif.Spec.Commands
/-!
# C110–C111: commands pass their options on
-/
namespace Strata.Commands
open Strata Strata.SpreadingText Strata.Spec

theorem lookup_parsed (table given : Kw) (n : String) : (parsed table given).lookup n = (table.lookup n).map fun d => (given.lookup n).getD d := by
  unfold parsed
  induction table with
  | nil => rfl
  | cons o t ih =>
    obtain ⟨m, d⟩ := o
    by_cases h : n = m
    · subst h; simp
    · have hb : (n == m) = false := by simpa using h
      simp [List.lookup_cons, hb, ih]

theorem lookup_filter_ne (k : Kw) (m n : String) : (k.filter fun e => decide (e.1 ≠ m)).lookup n = if n = m then none else k.lookup n := by
  induction k with
  | nil => simp
  | cons e k ih =>
    obtain ⟨a, v⟩ := e
    by_cases ha : a = m
    · subst ha
      simp only [List.filter_cons, ne_eq, not_true_eq_false, decide_false, Bool.false_eq_true, if_false]
      rw [ih]
      by_cases h : n = a
      · simp [h]
      · have hb : (n == a) = false := by simpa using h
        simp [h, List.lookup_cons, hb]
    · simp only [List.filter_cons, ne_eq, ha, not_false_eq_true, decide_true, if_true]
      by_cases h : n = a
      · subst h; simp [ha]
      · have hb : (n == a) = false := by simpa using h
        simp only [List.lookup_cons, hb]
        exact ih

theorem lookup_set (k : Kw) (m n : String) (v : Arg) : (set k m v).lookup n = if n = m then some v else k.lookup n := by
  unfold set
  by_cases h : n = m
  · subst h; simp
  · have hb : (n == m) = false := by simpa using h
    rw [List.lookup_cons, hb, lookup_filter_ne, if_neg h, if_neg h]

theorem lookup_remove (k : Kw) (m n : String) : (remove k m).lookup n = if n = m then none else k.lookup n := lookup_filter_ne k m n

theorem setEnd_ok (k : Kw) (v : Arg) (h : k.lookup "end" = some v) : ∃ k', setEnd k = .ok k' ∧ ∀ n, k'.lookup n = if n = "end" then some (boundOf v) else k.lookup n := by
  unfold setEnd item
  rw [h]
  by_cases hv : v = .none
  · refine ⟨_, rfl, fun n => ?_⟩
    rw [if_pos hv, lookup_set, boundOf, if_pos hv]
  · refine ⟨_, rfl, fun n => ?_⟩
    rw [if_neg hv, boundOf, if_neg hv]
    by_cases hn : n = "end"
    · subst hn; simpa using h
    · rw [if_neg hn]

theorem item_ok {k : Kw} {n : String} {v : Arg} (h : k.lookup n = some v) : item k n = .ok v := by unfold item; rw [h]

/-- The lookup in a table of documented options. -/
theorem lookup_doc (given options other : Kw) (n : String) :
    ((options.map fun o => (o.1, valueOf given o.1 o.2)) ++ other).lookup n = ((options.lookup n).map fun d => (given.lookup n).getD d).or (other.lookup n) := by
  rw [List.lookup_append]
  congr 1
  exact lookup_parsed options given n

theorem ok_bind {α β : Type} (a : α) (f : α → Except Err β) : (Except.ok a >>= f) = f a := rfl

/-- **C110.** The values that count as not given where the commands ask for the truth of an option: nothing, a switch that is off, zero, an empty text and an empty list. -/
theorem C110_truth (v : Arg) : truthy v = false ↔ v = .none ∨ v = .bool false ∨ v = .num 0 ∨ v = .text "" ∨ v = .list [] := by
  cases v <;> simp [truthy]

/-- **C110, `strata average`.** -/
theorem C110_average (base output group : Arg) (given : Kw) :
    ∃ call, averageCli base output group (parsed averageOptions given) = .ok call ∧ call.function = "average" ∧ call.args = [base, output, group] ∧
      Gets call given averageDoc [("recenter", if valueOf given "recenter" (.text "none") = .text "none" then .none else valueOf given "recenter" (.text "none")), lastNumber given] := by
  obtain ⟨k, hk, hl⟩ := setEnd_ok (parsed averageOptions given) (valueOf given "end" .none) (lookup_parsed _ _ _)
  have hr : k.lookup "recenter" = some (valueOf given "recenter" (.text "none")) := by
    rw [hl, if_neg (by decide), lookup_parsed]; rfl
  unfold averageCli
  rw [hk, ok_bind, item_ok hr, ok_bind]
  refine ⟨_, rfl, rfl, rfl, fun n => ?_⟩
  rw [lookup_doc]
  simp only
  by_cases h1 : n = "recenter"
  · subst h1
    split_ifs with h
    · rw [lookup_set, if_pos rfl]; rfl
    · rw [hr]; rfl
  have e : (if valueOf given "recenter" (.text "none") = .text "none" then set k "recenter" .none else k).lookup n = k.lookup n := by
    split_ifs with h
    · rw [lookup_set, if_neg h1]
    · rfl
  rw [e, hl, lookup_parsed]
  by_cases h2 : n = "end"
  · subst h2; rfl
  have b1 : (n == "recenter") = false := by simpa using h1
  have b2 : (n == "end") = false := by simpa using h2
  rw [if_neg h2]
  simp [averageOptions, averageDoc, limitOptions, limits, rangeOptions, lastNumber, List.lookup_cons, b1, b2]

/-- A concrete command line: `strata average a b 5 --recenter com -e 12`. -/
example : averageCli (.text "a") (.text "b") (.num 5) (parsed averageOptions [("recenter", .text "com"), ("end", .num 12)]) = .ok ⟨"average", [.text "a", .text "b", .num 5],
    [("combine", .pair none none), ("supersample", .none), ("recenter", .text "com"), ("rolling", .bool false), ("floor", .none), ("cutoff", .num 0), ("cutoff_bins", .num 1),
    ("cutoff_radius", .num 1), ("xlim", .pair none none), ("ylim", .pair none none), ("begin", .num 1), ("end", .num 12), ("ext", .text ".dat")]⟩ := by decide +kernel

/-- **C110, `strata convert`.** -/
theorem C110_convert (base output : Arg) (given : Kw) :
    ∃ call, convertCli base output (parsed convertOptions given) = .ok call ∧ call.function = "convert" ∧ call.args = [base, output] ∧ Gets call given convertDoc [lastNumber given] := by
  obtain ⟨k, hk, hl⟩ := setEnd_ok (parsed convertOptions given) (valueOf given "end" .none) (lookup_parsed _ _ _)
  unfold convertCli
  rw [hk, ok_bind]
  refine ⟨_, rfl, rfl, rfl, fun n => ?_⟩
  rw [lookup_doc]
  simp only
  rw [hl, lookup_parsed]
  by_cases h2 : n = "end"
  · subst h2; rfl
  have b2 : (n == "end") = false := by simpa using h2
  rw [if_neg h2]
  simp [convertOptions, convertDoc, limitOptions, limits, rangeOptions, lastNumber, barOptions, barDoc, List.lookup_cons, b2]

/-- **C110, `strata interface view`.** -/
theorem C110_interface_view (base : Arg) (given : Kw) :
    ∃ call, interfaceViewCli base (parsed interfaceViewOptions given) = .ok call ∧ call.function = "view_interfaces" ∧ call.args = [base] ∧ Gets call given interfaceViewDoc [lastNumber given] := by
  obtain ⟨k, hk, hl⟩ := setEnd_ok (parsed interfaceViewOptions given) (valueOf given "end" .none) (lookup_parsed _ _ _)
  unfold interfaceViewCli
  rw [hk, ok_bind]
  refine ⟨_, rfl, rfl, rfl, fun n => ?_⟩
  rw [lookup_doc]
  simp only
  rw [hl, lookup_parsed]
  by_cases h2 : n = "end"
  · subst h2; rfl
  have b2 : (n == "end") = false := by simpa using h2
  rw [if_neg h2]
  simp [interfaceViewOptions, interfaceViewDoc, limitOptions, limits, rangeOptions, lastNumber, barOptions, barDoc, List.lookup_cons, b2]

/-- **C110, `strata contact_line collect`.** -/
theorem C110_contact_line_collect (base output : Arg) (given : Kw) :
    ∃ call, extractCli base output (parsed extractOptions given) = .ok call ∧ call.function = "extract_contact_line_bins" ∧ call.args = [base, output] ∧ Gets call given extractDoc [lastNumber given] := by
  obtain ⟨k, hk, hl⟩ := setEnd_ok (parsed extractOptions given) (valueOf given "end" .none) (lookup_parsed _ _ _)
  unfold extractCli
  rw [hk, ok_bind]
  refine ⟨_, rfl, rfl, rfl, fun n => ?_⟩
  rw [lookup_doc]
  simp only
  rw [hl, lookup_parsed]
  by_cases h2 : n = "end"
  · subst h2; rfl
  have b2 : (n == "end") = false := by simpa using h2
  rw [if_neg h2]
  simp [extractOptions, extractDoc, limitOptions, limits, rangeOptions, lastNumber, barOptions, barDoc, List.lookup_cons, b2]

/-- **C110, `strata sample`.** -/
theorem C110_sample (base : Arg) (labels : List String) (given : Kw) :
    ∃ call, sampleCli base labels (parsed sampleOptions given) = .ok call ∧ call.function = "sample_average_files" ∧ call.args = [base, .list labels] ∧
      Gets call given sampleDoc [("sum", asksSum given), lastNumber given] := by
  obtain ⟨k, hk, hl⟩ := setEnd_ok (parsed sampleOptions given) (valueOf given "end" .none) (lookup_parsed _ _ _)
  have hp : k.lookup "process" = some (valueOf given "process" (.text "mean")) := by
    rw [hl, if_neg (by decide), lookup_parsed]; rfl
  unfold sampleCli processToSum
  rw [hk, ok_bind, item_ok hp]
  refine ⟨_, rfl, rfl, rfl, fun n => ?_⟩
  rw [lookup_doc]
  simp only
  rw [lookup_set, lookup_remove, hl, lookup_parsed]
  by_cases h1 : n = "sum"
  · subst h1; rfl
  by_cases h2 : n = "end"
  · subst h2; rfl
  by_cases h3 : n = "process"
  · subst h3; rfl
  rw [if_neg h1, if_neg h3, if_neg h2]
  have b1 : (n == "sum") = false := by simpa using h1
  have b2 : (n == "end") = false := by simpa using h2
  have b3 : (n == "process") = false := by simpa using h3
  simp [sampleOptions, sampleDoc, limitOptions, limits, rangeOptions, lastNumber, barOptions, barDoc, List.lookup_cons, b1, b2, b3]

/-- **C110, `strata contact_line sample (partial: the default area is not the documented one)`.** -/
theorem C110_contact_line_sample_partial (base : Arg) (labels : List String) (given : Kw) :
    ∃ call, contactSampleCli base labels (parsed contactSampleOptions given) = .ok call ∧ call.function = "sample_contact_line_edges" ∧ call.args = [base, .list labels] ∧
      Gets call given contactSampleDoc [("extract_area", valueOf given "extract_area" (.pair (some 0) (some 0))), ("sum", asksSum given), lastNumber given] := by
  obtain ⟨k, hk, hl⟩ := setEnd_ok (parsed contactSampleOptions given) (valueOf given "end" .none) (lookup_parsed _ _ _)
  have hp : k.lookup "process" = some (valueOf given "process" (.text "mean")) := by
    rw [hl, if_neg (by decide), lookup_parsed]; rfl
  unfold contactSampleCli processToSum
  rw [hk, ok_bind, item_ok hp]
  refine ⟨_, rfl, rfl, rfl, fun n => ?_⟩
  rw [lookup_doc]
  simp only
  rw [lookup_set, lookup_remove, hl, lookup_parsed]
  by_cases h1 : n = "sum"
  · subst h1; rfl
  by_cases h2 : n = "end"
  · subst h2; rfl
  by_cases h3 : n = "process"
  · subst h3; rfl
  rw [if_neg h1, if_neg h3, if_neg h2]
  have b1 : (n == "sum") = false := by simpa using h1
  have b2 : (n == "end") = false := by simpa using h2
  have b3 : (n == "process") = false := by simpa using h3
  by_cases h4 : n = "extract_area"
  · subst h4; rfl
  have b4 : (n == "extract_area") = false := by simpa using h4
  simp [contactSampleOptions, contactSampleDoc, limitOptions, limits, rangeOptions, lastNumber, barOptions, barDoc, List.lookup_cons, b1, b2, b3, b4]

/-- **C110, counterexample: the area of `strata contact_line sample`.** The help text says that the default area is 1 nm times 1 nm, as for `contact_line collect`; it is empty. -/
theorem C110_area_counterexample (base : Arg) (labels : List String) (given : Kw) (h : given.lookup "extract_area" = none) :
    ∃ call, contactSampleCli base labels (parsed contactSampleOptions given) = .ok call ∧ call.kwargs.lookup "extract_area" = some (.pair (some 0) (some 0)) := by
  obtain ⟨call, h1, -, -, h4⟩ := C110_contact_line_sample_partial base labels given
  refine ⟨call, h1, ?_⟩
  rw [h4, lookup_doc]
  have : valueOf given "extract_area" (.pair (some 0) (some 0)) = .pair (some 0) (some 0) := by rw [valueOf, h]; rfl
  rw [this]
  rfl

/-- **C110, `strata spreading collect`.** -/
theorem C110_spreading_collect (base floor : Arg) (given : Kw) :
    ∃ call, collectCall base floor (parsed collectOptions given) = .ok call ∧ call.function = "collect" ∧ call.args = [base] ∧
      Gets call given collectDoc [("floor", floor), ("save", if truthy (valueOf given "nooutput" (.bool false)) then .none else valueOf given "save" (.text "spread.xvg")), lastNumber given] := by
  have hn : (parsed collectOptions given).lookup "nooutput" = some (valueOf given "nooutput" (.bool false)) := lookup_parsed _ _ _
  let k1 := if truthy (valueOf given "nooutput" (.bool false)) then set (remove (remove (parsed collectOptions given) "verbose") "nooutput") "save" .none
    else remove (remove (parsed collectOptions given) "verbose") "nooutput"
  have l1 : ∀ n, k1.lookup n = if n = "save" then some (if truthy (valueOf given "nooutput" (.bool false)) then .none else valueOf given "save" (.text "spread.xvg"))
      else if n = "nooutput" ∨ n = "verbose" then none else (collectOptions.lookup n).map fun d => (given.lookup n).getD d := by
    intro n
    have e : (remove (remove (parsed collectOptions given) "verbose") "nooutput").lookup n =
        if n = "nooutput" ∨ n = "verbose" then none else (collectOptions.lookup n).map fun d => (given.lookup n).getD d := by
      rw [lookup_remove, lookup_remove, lookup_parsed]
      by_cases h1 : n = "nooutput" <;> by_cases h2 : n = "verbose" <;> simp [h1, h2]
    by_cases ht : truthy (valueOf given "nooutput" (.bool false)) = true
    · simp only [k1, if_pos ht]
      rw [lookup_set, e]
    · simp only [k1, if_neg ht]
      by_cases hs : n = "save"
      · subst hs; rw [e]; rfl
      · rw [e, if_neg hs]
  obtain ⟨k, hk, hl⟩ := setEnd_ok k1 (valueOf given "end" .none) (by rw [l1]; rfl)
  unfold collectCall
  rw [item_ok hn, ok_bind]
  have hk' : setEnd (if truthy (valueOf given "nooutput" (.bool false)) = true then set (remove (remove (parsed collectOptions given) "verbose") "nooutput") "save" .none
    else remove (remove (parsed collectOptions given) "verbose") "nooutput") = .ok k := hk
  simp only [hk']
  refine ⟨_, rfl, rfl, rfl, fun n => ?_⟩
  rw [lookup_doc]
  simp only
  rw [lookup_set, hl, l1]
  by_cases h1 : n = "floor"
  · subst h1; rfl
  by_cases h2 : n = "end"
  · subst h2; rfl
  by_cases h3 : n = "save"
  · subst h3; rfl
  by_cases h4 : n = "nooutput"
  · subst h4; rfl
  by_cases h5 : n = "verbose"
  · subst h5; rfl
  rw [if_neg h1, if_neg h2, if_neg h3, if_neg (by tauto)]
  have b1 : (n == "floor") = false := by simpa using h1
  have b2 : (n == "end") = false := by simpa using h2
  have b3 : (n == "save") = false := by simpa using h3
  have b4 : (n == "nooutput") = false := by simpa using h4
  have b5 : (n == "verbose") = false := by simpa using h5
  simp [collectOptions, collectDoc, rangeOptions, lastNumber, List.lookup_cons, b1, b2, b3, b4, b5]

/-- **C110, `strata spreading view`, `view contour` and `view flow`.** (The help text of `view flow` has two defaults for colour bars, `--nocolourbar` in the declaration and `(True)`
in the text; there is none.) -/
theorem C110_views (files : List String) (given : Kw) :
    (Gets (spreadingViewCli files (parsed spreadingViewOptions given)) given spreadingViewDoc [] ∧
      (spreadingViewCli files (parsed spreadingViewOptions given)).function = "view_spreading" ∧ (spreadingViewCli files (parsed spreadingViewOptions given)).args = [.list files]) ∧
    (Gets (contourCli files (parsed contourOptions given)) given contourDoc [("type", .text "contour")] ∧
      (contourCli files (parsed contourOptions given)).function = "view_flowmap_2d" ∧ (contourCli files (parsed contourOptions given)).args = files.map .text) ∧
    (Gets (quiverCli files (parsed quiverOptions given)) given quiverDoc [("colorbar", valueOf given "colorbar" (.bool false)), ("cutoff_label", .text "M")] ∧
      (quiverCli files (parsed quiverOptions given)).function = "view_flowfields" ∧ (quiverCli files (parsed quiverOptions given)).args = files.map .text) := by
  refine ⟨⟨fun n => ?_, rfl, rfl⟩, ⟨fun n => ?_, rfl, rfl⟩, ⟨fun n => ?_, rfl, rfl⟩⟩
  · rw [lookup_doc]
    unfold spreadingViewCli
    simp only
    rw [lookup_parsed]
    simp [spreadingViewOptions, spreadingViewDoc, limitOptions, limits, List.lookup_cons]
  · rw [lookup_doc]
    unfold contourCli
    simp only
    rw [List.lookup_cons, lookup_parsed]
    by_cases h1 : n = "type"
    · subst h1; rfl
    have b1 : (n == "type") = false := by simpa using h1
    simp [contourOptions, contourDoc, limitOptions, limits, barOptions, barDoc, List.lookup_cons, b1]
  · rw [lookup_doc]
    unfold quiverCli
    simp only
    rw [List.lookup_cons, lookup_parsed]
    by_cases h1 : n = "cutoff_label"
    · subst h1; rfl
    by_cases h2 : n = "colorbar"
    · subst h2; rfl
    have b1 : (n == "cutoff_label") = false := by simpa using h1
    have b2 : (n == "colorbar") = false := by simpa using h2
    simp [quiverOptions, quiverDoc, limitOptions, limits, barOptions, barDoc, List.lookup_cons, b1, b2]

/-- **C110, `strata view height` (partial: `--noaxis`).** -/
theorem C110_view_height_partial (files : List String) (given : Kw) :
    ∃ call, heightCli files (parsed heightOptions given) = .ok call ∧ call.function = "view_flowmap_2d" ∧ call.args = files.map .text ∧
      Gets call given heightDoc [("type", .text "height"), ("noaxis", .bool (!truthy (valueOf given "drawaxes" (.bool true))))] := by
  have hd : (parsed heightOptions given).lookup "drawaxes" = some (valueOf given "drawaxes" (.bool true)) := lookup_parsed _ _ _
  unfold heightCli
  rw [item_ok hd]
  refine ⟨_, rfl, rfl, rfl, fun n => ?_⟩
  rw [lookup_doc]
  simp only
  rw [List.lookup_cons, lookup_set, lookup_remove, lookup_parsed]
  by_cases h1 : n = "type"
  · subst h1; rfl
  by_cases h2 : n = "noaxis"
  · subst h2; rfl
  by_cases h3 : n = "drawaxes"
  · subst h3; rfl
  rw [if_neg h2, if_neg h3]
  have b1 : (n == "type") = false := by simpa using h1
  have b2 : (n == "noaxis") = false := by simpa using h2
  have b3 : (n == "drawaxes") = false := by simpa using h3
  simp [heightOptions, heightDoc, limitOptions, limits, barOptions, barDoc, List.lookup_cons, b1, b2, b3]

/-- **C110, counterexample: `--noaxis` of `strata view height`.** "Do not draw the figure axes": the option changes nothing; the axes are drawn. -/
theorem C110_noaxis_counterexample (files : List String) (given : Kw) (h : given.lookup "drawaxes" = none) :
    ∃ call, heightCli files (parsed heightOptions (("noaxis", .bool true) :: given)) = .ok call ∧ call.kwargs.lookup "noaxis" = some (.bool false) := by
  obtain ⟨call, h1, -, -, h4⟩ := C110_view_height_partial files (("noaxis", .bool true) :: given)
  refine ⟨call, h1, ?_⟩
  rw [h4, lookup_doc]
  have : valueOf (("noaxis", .bool true) :: given) "drawaxes" (.bool true) = .bool true := by
    rw [valueOf, List.lookup_cons, show (("drawaxes" : String) == "noaxis") = false by decide]
    simp only [h]
    rfl
  rw [this]
  rfl

/-- **C110, `strata interface collect`.** -/
theorem C110_interface_collect (base output : Arg) (given : Kw) :
    ∃ call, interfaceCollectCall base output (parsed interfaceCollectOptions given) = .ok call ∧ call.function = "collect_interfaces" ∧ call.args = [base, output] ∧
      Gets call given interfaceCollectDoc
        [("recenter", if valueOf given "recenter" (.text "zero") = .text "off" then .none else valueOf given "recenter" (.text "zero")), lastNumber given] := by
  obtain ⟨k, hk, hl⟩ := setEnd_ok (parsed interfaceCollectOptions given) (valueOf given "end" .none) (lookup_parsed _ _ _)
  have hr : k.lookup "recenter" = some (valueOf given "recenter" (.text "zero")) := by
    rw [hl, if_neg (by decide), lookup_parsed]; rfl
  unfold interfaceCollectCall
  rw [hk, ok_bind, item_ok hr, ok_bind]
  refine ⟨_, rfl, rfl, rfl, fun n => ?_⟩
  rw [lookup_doc]
  simp only
  by_cases h1 : n = "recenter"
  · subst h1
    split_ifs with h
    · rw [lookup_set, if_pos rfl]; rfl
    · rw [hr]; rfl
  have e : (if valueOf given "recenter" (.text "zero") = .text "off" then set k "recenter" .none else k).lookup n = k.lookup n := by
    split_ifs with h
    · rw [lookup_set, if_neg h1]
    · rfl
  rw [e, hl, lookup_parsed]
  by_cases h2 : n = "end"
  · subst h2; rfl
  have b1 : (n == "recenter") = false := by simpa using h1
  have b2 : (n == "end") = false := by simpa using h2
  rw [if_neg h2]
  simp [interfaceCollectOptions, interfaceCollectDoc, rangeOptions, lastNumber, List.lookup_cons, b1, b2]

/-- **C110, `strata interface sample`.** Without a label (or with an empty one) the axis is labelled by the quantity. -/
theorem C110_interface_sample (base kind : Arg) (given : Kw) :
    ∃ call, interfaceSampleCli base kind (parsed interfaceSampleOptions given) = .ok call ∧ call.function = "sample_interfaces" ∧ call.args = [base, kind] ∧
      Gets call given interfaceSampleDoc [("ylabel", if truthy (valueOf given "ylabel" .none) then valueOf given "ylabel" .none
        else if kind = .text "area" then .text "A (nm^2)" else .text "L (nm)"), lastNumber given] := by
  have hy : (parsed interfaceSampleOptions given).lookup "ylabel" = some (valueOf given "ylabel" .none) := lookup_parsed _ _ _
  let k1 := if truthy (valueOf given "ylabel" .none) then parsed interfaceSampleOptions given
    else set (parsed interfaceSampleOptions given) "ylabel" (if kind = .text "area" then .text "A (nm^2)" else .text "L (nm)")
  have l1 : ∀ n, k1.lookup n = if n = "ylabel" then some (if truthy (valueOf given "ylabel" .none) then valueOf given "ylabel" .none
        else if kind = .text "area" then .text "A (nm^2)" else .text "L (nm)") else (interfaceSampleOptions.lookup n).map fun d => (given.lookup n).getD d := by
    intro n
    by_cases ht : truthy (valueOf given "ylabel" .none) = true
    · simp only [k1, if_pos ht]
      by_cases hs : n = "ylabel"
      · subst hs; rw [hy, if_pos rfl]
      · rw [if_neg hs, lookup_parsed]
    · simp only [k1, if_neg ht]
      rw [lookup_set, lookup_parsed]
  obtain ⟨k, hk, hl⟩ := setEnd_ok k1 (valueOf given "end" .none) (by rw [l1]; rfl)
  have hk' : setEnd (if truthy (valueOf given "ylabel" .none) = true then parsed interfaceSampleOptions given
    else set (parsed interfaceSampleOptions given) "ylabel" (if kind = .text "area" then .text "A (nm^2)" else .text "L (nm)")) = .ok k := hk
  unfold interfaceSampleCli
  rw [item_ok hy, ok_bind, hk', ok_bind]
  refine ⟨_, rfl, rfl, rfl, fun n => ?_⟩
  rw [lookup_doc]
  simp only
  rw [hl, l1]
  by_cases h1 : n = "ylabel"
  · subst h1; rfl
  by_cases h2 : n = "end"
  · subst h2; rfl
  rw [if_neg h1, if_neg h2]
  have b1 : (n == "ylabel") = false := by simpa using h1
  have b2 : (n == "end") = false := by simpa using h2
  simp [interfaceSampleOptions, interfaceSampleDoc, limitOptions, limits, rangeOptions, lastNumber, List.lookup_cons, b1, b2]

/-- **C110, `strata interface angle` (partial: height 0).** With a fit or with a height other than 0 the function is called; with neither it is not. -/
theorem C110_interface_angle_partial (base : Arg) (given : Kw) :
    (truthy (valueOf given "fit" (.bool false)) = true ∨ truthy (valueOf given "height" .none) = true →
      ∃ call, interfaceAngleCli base (parsed interfaceAngleOptions given) = .ok (some call) ∧ call.function = "interface_contact_angle" ∧ call.args = [base] ∧
        Gets call given interfaceAngleDoc [lastNumber given]) ∧
    (truthy (valueOf given "fit" (.bool false)) = false → valueOf given "height" .none = .none → interfaceAngleCli base (parsed interfaceAngleOptions given) = .ok none) := by
  have hf : (parsed interfaceAngleOptions given).lookup "fit" = some (valueOf given "fit" (.bool false)) := lookup_parsed _ _ _
  have hh : (parsed interfaceAngleOptions given).lookup "height" = some (valueOf given "height" .none) := lookup_parsed _ _ _
  obtain ⟨k, hk, hl⟩ := setEnd_ok (parsed interfaceAngleOptions given) (valueOf given "end" .none) (lookup_parsed _ _ _)
  unfold interfaceAngleCli
  rw [item_ok hf, ok_bind, item_ok hh, ok_bind, hk]
  refine ⟨fun h => ?_, fun h1 h2 => ?_⟩
  · rw [if_pos (by simpa using h), ok_bind]
    refine ⟨_, rfl, rfl, rfl, fun n => ?_⟩
    rw [lookup_doc]
    simp only
    rw [hl, lookup_parsed]
    by_cases h2 : n = "end"
    · subst h2; rfl
    have b2 : (n == "end") = false := by simpa using h2
    rw [if_neg h2]
    simp [interfaceAngleOptions, interfaceAngleDoc, limitOptions, limits, rangeOptions, lastNumber, List.lookup_cons, b2]
  · rw [if_neg (by rw [h1, h2]; simp [truthy])]
    rfl

/-- **C110, counterexample: height 0.** `strata interface angle --height 0` is refused although a height was given. -/
theorem C110_height_zero_counterexample (base : Arg) : interfaceAngleCli base (parsed interfaceAngleOptions [("height", .num 0)]) = .ok none := by rfl

/-! ## C111 -/

/-- **C111, `strata spreading collect`.** The command fails as the function does; otherwise it prints nothing, or with `--verbose` the title and one line for each time and radius. -/
theorem C111_spreading_collect (collect : Call → Except Err (List (ℚ × ℚ))) (base floor : Arg) (given : Kw) (call : Call)
    (hc : collectCall base floor (parsed collectOptions given) = .ok call) :
    (∀ e, collect call = .error e → collectCli collect base floor (parsed collectOptions given) = .error e) ∧
    (∀ rows, collect call = .ok rows → collectCli collect base floor (parsed collectOptions given) =
      .ok (if truthy (valueOf given "verbose" (.bool false)) then "Time (ps) Radius (nm)".toList :: rows.map fun r => fixed 3 r.1 ++ " ".toList ++ fixed 3 r.2 else [])) := by
  have hv : (parsed collectOptions given).lookup "verbose" = some (valueOf given "verbose" (.bool false)) := lookup_parsed _ _ _
  unfold collectCli verboseLines
  rw [item_ok hv, ok_bind, hc, ok_bind]
  refine ⟨fun e h => by rw [h]; rfl, fun rows h => ?_⟩
  rw [h, ok_bind]
  have : (rows.map fun r : ℚ × ℚ => fixed 3 r.1 ++ ' ' :: fixed 3 r.2) = rows.map fun r => fixed 3 r.1 ++ " ".toList ++ fixed 3 r.2 := by
    apply List.map_congr_left
    intro r _
    simp
  rw [this]
  rfl

/-- **C111, `strata spreading fit`.** All options but `--print` are passed on; the parameters of each series are printed with six decimals unless `--noprint` is given. -/
theorem C111_spreading_fit (fit : Call → Except Err (List (ℚ × ℚ))) (files : List String) (given : Kw) :
    ∃ call, call.function = "fit_spreading_data" ∧ call.args = [.list files] ∧ Gets call given spreadingFitDoc [] ∧
      (∀ e, fit call = .error e → spreadingFitCli fit files (parsed spreadingFitOptions given) = .error e) ∧
      (∀ params, fit call = .ok params → spreadingFitCli fit files (parsed spreadingFitOptions given) =
        .ok (if truthy (valueOf given "print" (.bool true)) then "Found fitting parameters (a, k) for r = a*t^k:".toList :: params.map fun r => fixed 6 r.1 ++ " ".toList ++ fixed 6 r.2
          else [])) := by
  have hp : (parsed spreadingFitOptions given).lookup "print" = some (valueOf given "print" (.bool true)) := lookup_parsed _ _ _
  refine ⟨⟨"fit_spreading_data", [.list files], remove (parsed spreadingFitOptions given) "print"⟩, rfl, rfl, fun n => ?_, ?_, ?_⟩
  · rw [lookup_doc]
    simp only
    rw [lookup_remove, lookup_parsed]
    by_cases h1 : n = "print"
    · subst h1; rfl
    have b1 : (n == "print") = false := by simpa using h1
    rw [if_neg h1]
    simp [spreadingFitOptions, spreadingFitDoc, limitOptions, limits, List.lookup_cons, b1]
  · intro e h
    unfold spreadingFitCli
    rw [item_ok hp, ok_bind, h]
    rfl
  · intro params h
    unfold spreadingFitCli fitLines
    rw [item_ok hp, ok_bind, h, ok_bind]
    have : (params.map fun r : ℚ × ℚ => fixed 6 r.1 ++ ' ' :: fixed 6 r.2) = params.map fun r => fixed 6 r.1 ++ " ".toList ++ fixed 6 r.2 := by
      apply List.map_congr_left
      intro r _
      simp
    rw [this]
    rfl

example : (∀ e, spreadingFitCli (fun _ => .ok [(3 / 2, 1 / 3)]) ["a"] (parsed spreadingFitOptions []) ≠ .error e) ∧
    spreadingFitCli (fun _ => .ok [(3 / 2, 1 / 3)]) ["a"] (parsed spreadingFitOptions []) = .ok ["Found fitting parameters (a, k) for r = a*t^k:".toList, "1.500000 0.333333".toList] := by
  constructor
  · intro e h
    cases h
  · decide +kernel

/-- **C111, `strata interface collect` (partial: success).** The files are left as the function leaves them, and the command fails as the function does. -/
theorem C111_interface_collect_partial {σ : Type} (collect : Call → σ → σ × Except Err Unit) (base output : Arg) (given : Kw) (files : σ) :
    ∃ call, interfaceCollectCall base output (parsed interfaceCollectOptions given) = .ok call ∧
      (interfaceCollectCli collect base output (parsed interfaceCollectOptions given) files).1 = (collect call files).1 ∧
      ∀ e, (collect call files).2 = .error e → (interfaceCollectCli collect base output (parsed interfaceCollectOptions given) files).2 = .error e := by
  obtain ⟨call, hc, -, -, -⟩ := C110_interface_collect base output given
  refine ⟨call, hc, ?_⟩
  unfold interfaceCollectCli
  rw [hc]
  simp only
  rcases collect call files with ⟨s, r⟩
  rcases r with e | u
  · exact ⟨rfl, fun e' h => h⟩
  · refine ⟨rfl, fun e' h => ?_⟩
    cases h

/-- **C111, counterexample: `strata interface collect`.** The command fails with `TypeError` whenever the function succeeds, for all options, after all files were written. -/
theorem C111_interface_collect_counterexample {σ : Type} (collect : Call → σ → σ × Except Err Unit) (base output : Arg) (given : Kw) (files : σ) (call : Call)
    (hc : interfaceCollectCall base output (parsed interfaceCollectOptions given) = .ok call) (hok : (collect call files).2 = .ok ()) :
    (interfaceCollectCli collect base output (parsed interfaceCollectOptions given) files).2 = .error .typeError := by
  unfold interfaceCollectCli
  rw [hc]
  simp only
  rcases hr : collect call files with ⟨s, r⟩
  rw [hr] at hok
  rcases r with e | u
  · cases hok
  · rfl

example : (interfaceCollectCli (fun _ (n : ℕ) => (n + 1, .ok ())) (.text "a") (.text "b") (parsed interfaceCollectOptions [("end", .num 3)]) 0).1 = 1 ∧
    (interfaceCollectCli (fun _ (n : ℕ) => (n + 1, .ok ())) (.text "a") (.text "b") (parsed interfaceCollectOptions [("end", .num 3)]) 0).2 = .error .typeError := by
  refine ⟨?_, ?_⟩ <;> rfl

end Strata.Commands
