import Verif.Model.SpreadingText
import Verif.Model.Numeric
/-!
# Model of the commands of `strata/strata.py`

The library `click` splits the command line and passes the value of each option, or its default value, by keyword to the function of the command.  What is modelled are the tables
of options with their default values and the functions of the commands, which pass them on.  (The types of options which the code defines itself are in `Model.Cli`.)
-/
namespace Strata.Commands
open Strata Strata.SpreadingText

/-- Values of options. -/
inductive Arg where
  | none
  | inf
  | bool (b : Bool)
  | num (q : ℚ)
  | text (t : String)
  | pair (a b : Option ℚ)
  | list (l : List String)
  deriving DecidableEq, Repr

/-- Keyword arguments. -/
abbrev Kw := List (String × Arg)

/-- What `click` passes for a table of options with default values if `given` are the options on the command line (strata/strata.py:192-228 for the first command). -/
def parsed (table : Kw) (given : Kw) : Kw := table.map fun o => (o.1, (given.lookup o.1).getD o.2)

/-- `kwargs[name] = value` (strata/strata.py:251). -/
def set (k : Kw) (name : String) (value : Arg) : Kw := (name, value) :: k.filter fun e => e.1 ≠ name

/-- What is left after `kwargs.pop(name)` (strata/strata.py:339). -/
def remove (k : Kw) (name : String) : Kw := k.filter fun e => e.1 ≠ name

/-- `kwargs[name]` (strata/strata.py:250). -/
def item (k : Kw) (name : String) : Except Err Arg :=
  match k.lookup name with
  | some v => .ok v
  | none => .error .keyError

/-- `set_none_to_inf` (strata/strata.py:1018-1020). -/
def setEnd (k : Kw) : Except Err Kw := do
  let v ← item k "end"
  return if v = .none then set k "end" .inf else k

/-- Truth of a value. -/
def truthy : Arg → Bool
  | .none => false
  | .inf => true
  | .bool b => b
  | .num q => decide (q ≠ 0)
  | .text t => decide (t ≠ "")
  | .pair _ _ => true
  | .list l => decide (l ≠ [])

/-- A call of a function of the library. -/
structure Call where
  function : String
  args : List Arg
  kwargs : Kw
  deriving DecidableEq, Repr

/-- `begin` and `end` (strata/strata.py:219-224); they are the same in all commands. -/
def rangeOptions : Kw := [("begin", .num 1), ("end", .none)]

/-- Limits (strata/strata.py:215-218). -/
def limitOptions : Kw := [("xlim", .pair none none), ("ylim", .pair none none)]

/-- Options of `average` (strata/strata.py:195-224). -/
def averageOptions : Kw :=
  [("combine", .pair none none), ("supersample", .none), ("recenter", .text "none"), ("rolling", .bool false), ("floor", .none), ("cutoff", .num 0), ("cutoff_bins", .num 1),
    ("cutoff_radius", .num 1)] ++ limitOptions ++ rangeOptions ++ [("ext", .text ".dat")]

/-- `average_cli` (strata/strata.py:225-253). -/
def averageCli (base output group : Arg) (kwargs : Kw) : Except Err Call := do
  let k ← setEnd kwargs
  let r ← item k "recenter"
  return ⟨"average", [base, output, group], if r = .text "none" then set k "recenter" .none else k⟩

/-- Options of `convert` (strata/strata.py:260-270). -/
def convertOptions : Kw := [("ftype", .text "gmx")] ++ rangeOptions ++ [("ext", .text ".dat")]

/-- `convert_cli` (strata/strata.py:271-281). -/
def convertCli (base output : Arg) (kwargs : Kw) : Except Err Call := do
  let k ← setEnd kwargs
  return ⟨"convert", [base, output], k⟩

/-- Options of `spreading collect` (strata/strata.py:295-318). -/
def collectOptions : Kw :=
  [("save", .text "spread.xvg"), ("nooutput", .bool false), ("dt", .num 1), ("cutoff", .none), ("cutoff_radius", .num 1), ("cutoff_bins", .num 1), ("t0", .num 0)] ++ rangeOptions ++
    [("ext", .text ".dat"), ("verbose", .bool false)]

/-- The call made by `spreading_collect_cli` (strata/strata.py:339-346). -/
def collectCall (base floor : Arg) (kwargs : Kw) : Except Err Call := do
  let no ← item kwargs "nooutput"
  let k := remove (remove kwargs "verbose") "nooutput"
  let k ← setEnd (if truthy no then set k "save" .none else k)
  return ⟨"collect", [base], set k "floor" floor⟩

/-- The lines printed with `--verbose` (strata/strata.py:348-351). -/
def verboseLines (rows : List (ℚ × ℚ)) : List Text := "Time (ps) Radius (nm)".toList :: rows.map fun r => fixed 3 r.1 ++ ' ' :: fixed 3 r.2

/-- `spreading_collect_cli` (strata/strata.py:319-351): what is printed; `collect` is a parameter. -/
def collectCli (collect : Call → Except Err (List (ℚ × ℚ))) (base floor : Arg) (kwargs : Kw) : Except Err (List Text) := do
  let v ← item kwargs "verbose"
  let c ← collectCall base floor kwargs
  let rows ← collect c
  return if truthy v then verboseLines rows else []

/-- Options of `spreading view` (strata/strata.py:357-380). -/
def spreadingViewOptions : Kw :=
  [("tau", .num 1), ("R", .num 1), ("sync_radius", .none), ("save_fig", .none), ("save_xvg", .none), ("show", .bool true), ("loglog", .bool false)] ++ limitOptions ++
    [("title", .text "Droplet spreading"), ("xlabel", .text "Time (ps)"), ("ylabel", .text "Radius (nm)")]

/-- `spreading_view_cli` (strata/strata.py:381-392). -/
def spreadingViewCli (files : List String) (kwargs : Kw) : Call := ⟨"view_spreading", [.list files], kwargs⟩

/-- Options of `spreading fit` (strata/strata.py:397-422). -/
def spreadingFitOptions : Kw :=
  [("lims", .pair none none), ("out_lims", .pair none none), ("save_fig", .none), ("save_xvg", .none), ("print", .bool true), ("show", .bool true), ("loglog", .bool false),
    ("legend", .bool true)] ++ limitOptions ++ [("title", .text "Droplet spreading with fit"), ("xlabel", .text "Time (ps)"), ("ylabel", .text "Radius (nm)")]

/-- The lines printed by `spreading fit` (strata/strata.py:438-441). -/
def fitLines (params : List (ℚ × ℚ)) : List Text := "Found fitting parameters (a, k) for r = a*t^k:".toList :: params.map fun r => fixed 6 r.1 ++ ' ' :: fixed 6 r.2

/-- `spreading_fit_cli` (strata/strata.py:423-441): what is printed; `fit_spreading_data` is a parameter. -/
def spreadingFitCli (fit : Call → Except Err (List (ℚ × ℚ))) (files : List String) (kwargs : Kw) : Except Err (List Text) := do
  let p ← item kwargs "print"
  let params ← fit ⟨"fit_spreading_data", [.list files], remove kwargs "print"⟩
  return if truthy p then fitLines params else []

/-- Options of `interface collect` (strata/strata.py:457-475). -/
def interfaceCollectOptions : Kw :=
  [("recenter", .text "zero"), ("cutoff", .none), ("cutoff_radius", .num 1), ("cutoff_bins", .num 1), ("ylims", .pair none none)] ++ rangeOptions ++ [("ext", .text ".dat")]

/-- The call made by `interface_collect_cli` (strata/strata.py:496-498). -/
def interfaceCollectCall (base output : Arg) (kwargs : Kw) : Except Err Call := do
  let k ← setEnd kwargs
  let r ← item k "recenter"
  return ⟨"collect_interfaces", [base, output], if r = .text "off" then set k "recenter" .none else k⟩

/-- `interface_collect_cli` (strata/strata.py:476-498): `collect_interfaces` (a parameter) changes the state of files; its result, which is `None`, is unpacked into two values. -/
def interfaceCollectCli {σ : Type} (collect : Call → σ → σ × Except Err Unit) (base output : Arg) (kwargs : Kw) (files : σ) : σ × Except Err Unit :=
  match interfaceCollectCall base output kwargs with
  | .error e => (files, .error e)
  | .ok c =>
    match collect c files with
    | (files, .error e) => (files, .error e)
    | (files, .ok ()) => (files, .error .typeError)

/-- Options of `interface view` (strata/strata.py:504-532). -/
def interfaceViewOptions : Kw :=
  [("average", .num 1), ("save_fig", .none), ("save_xvg", .text ""), ("show", .bool true)] ++ limitOptions ++
    [("title", .text "Droplet interface"), ("xlabel", .text "x (nm)"), ("ylabel", .text "y (nm)")] ++ rangeOptions ++ [("ext", .text ".xvg"), ("extfig", .text ".png")]

/-- `interface_view_cli` (strata/strata.py:533-546); two lists are returned and unpacked. -/
def interfaceViewCli (base : Arg) (kwargs : Kw) : Except Err Call := do
  let k ← setEnd kwargs
  return ⟨"view_interfaces", [base], k⟩

/-- Options of `interface sample` (strata/strata.py:552-581). -/
def interfaceSampleOptions : Kw :=
  [("save_fig", .none), ("save_xvg", .text ""), ("delta_t", .num 1), ("show", .bool true)] ++ limitOptions ++
    [("title", .text "Droplet interface"), ("xlabel", .text "t (ps)"), ("ylabel", .none)] ++ rangeOptions ++ [("ext", .text ".xvg"), ("extfig", .text ".png")]

/-- `interface_sample_cli` (strata/strata.py:582-597). -/
def interfaceSampleCli (base kind : Arg) (kwargs : Kw) : Except Err Call := do
  let l ← item kwargs "ylabel"
  let k ← setEnd (if truthy l then kwargs else set kwargs "ylabel" (if kind = .text "area" then .text "A (nm^2)" else .text "L (nm)"))
  return ⟨"sample_interfaces", [base, kind], k⟩

/-- Options of `interface angle` (strata/strata.py:603-632). -/
def interfaceAngleOptions : Kw :=
  [("fit", .bool false), ("height", .none), ("delta_t", .num 1), ("save_fig", .none), ("save_xvg", .none), ("show", .bool false)] ++ limitOptions ++
    [("title", .text "Contact angles"), ("xlabel", .text "t (ps)"), ("ylabel", .text "angle (deg.)")] ++ rangeOptions ++ [("ext", .text ".xvg")]

/-- `interface_angle_cli` (strata/strata.py:633-656): no call if neither a fit nor a height is given. -/
def interfaceAngleCli (base : Arg) (kwargs : Kw) : Except Err (Option Call) := do
  let f ← item kwargs "fit"
  let h ← item kwargs "height"
  if truthy f || truthy h then
    let k ← setEnd kwargs
    return some ⟨"interface_contact_angle", [base], k⟩
  else return none

/-- Options of `contact_line collect` (strata/strata.py:668-696). -/
def extractOptions : Kw :=
  [("average", .num 1), ("rolling", .bool false), ("recenter", .bool true), ("fuse", .bool false), ("floor", .none), ("extract_area", .pair (some 1) (some 1)), ("extract_height", .num 0),
    ("cutoff", .none), ("cutoff_radius", .num 1), ("cutoff_bins", .num 1)] ++ rangeOptions ++ [("ext", .text ".dat")]

/-- `cl_extract_cli` (strata/strata.py:697-722). -/
def extractCli (base output : Arg) (kwargs : Kw) : Except Err Call := do
  let k ← setEnd kwargs
  return ⟨"extract_contact_line_bins", [base, output], k⟩

/-- Options of `contact_line sample` (strata/strata.py:730-762). -/
def contactSampleOptions : Kw :=
  [("average", .num 1), ("rolling", .bool false), ("recenter", .bool true), ("floor", .none), ("extract_area", .pair (some 0) (some 0)), ("extract_height", .num 0), ("dt", .num 1),
    ("process", .text "mean"), ("cutoff", .none), ("cutoff_radius", .num 1), ("cutoff_bins", .num 1), ("save", .none)] ++ rangeOptions ++ [("ext", .text ".dat")]

/-- `process` becomes `sum` (strata/strata.py:788-789, 1013-1014). -/
def processToSum (k : Kw) : Except Err Kw := do
  let p ← item k "process"
  return set (remove k "process") "sum" (.bool (decide (p = .text "sum")))

/-- `cl_sample_cli` (strata/strata.py:763-790). -/
def contactSampleCli (base : Arg) (labels : List String) (kwargs : Kw) : Except Err Call := do
  let k ← setEnd kwargs
  let k ← processToSum k
  return ⟨"sample_contact_line_edges", [base, .list labels], k⟩

/-- Options of colour bars (strata/strata.py:815-824). -/
def barOptions (bar : Bool) : Kw := [("colorbar", .bool bar), ("cbarlabel", .none), ("cbarticks", .none), ("cbarticklabels", .none), ("colormap", .text "viridis")]

/-- Options of `view contour` (strata/strata.py:801-842). -/
def contourOptions : Kw :=
  [("save_fig", .none), ("label", .text "M"), ("num_contours", .num 10), ("contour_levels", .none), ("contour_colours", .none), ("filled", .bool false), ("vlim", .pair none none)] ++
    barOptions false ++ [("show", .bool true), ("transparent", .bool false), ("noaxis", .bool false), ("dims", .none)] ++ limitOptions ++
    [("title", .text "Droplet contours"), ("xlabel", .text "x (nm)"), ("ylabel", .text "y (nm)")]

/-- `view_contour_cli` (strata/strata.py:843-854). -/
def contourCli (files : List String) (kwargs : Kw) : Call := ⟨"view_flowmap_2d", files.map .text, ("type", .text "contour") :: kwargs⟩

/-- Options of `view height` (strata/strata.py:859-903). -/
def heightOptions : Kw :=
  [("save_fig", .none), ("label", .text "M"), ("clim", .pair none none), ("vlim", .pair none none), ("cutoff_label", .none), ("cutoff", .none)] ++ barOptions true ++
    [("transparent", .bool false), ("show", .bool true), ("noaxis", .bool false), ("dpi", .num 150), ("dims", .none)] ++ limitOptions ++
    [("drawaxes", .bool true), ("title", .text "Droplet height map"), ("xlabel", .text "x (nm)"), ("ylabel", .text "y (nm)")]

/-- `view_heightmap_cli` (strata/strata.py:904-917). -/
def heightCli (files : List String) (kwargs : Kw) : Except Err Call := do
  let d ← item kwargs "drawaxes"
  return ⟨"view_flowmap_2d", files.map .text, ("type", .text "height") :: set (remove kwargs "drawaxes") "noaxis" (.bool (!truthy d))⟩

/-- Options of `view flow` (strata/strata.py:922-966). -/
def quiverOptions : Kw :=
  [("save_fig", .none), ("cutoff", .none), ("colour", .text "T"), ("scale", .num 1), ("width", .num (3 / 2000)), ("pivot", .text "middle"), ("streamlines", .bool false),
    ("vlim", .pair none none)] ++ barOptions false ++ [("show", .bool true), ("transparent", .bool false), ("noaxis", .bool false), ("dpi", .num 150), ("dims", .none)] ++ limitOptions ++
    [("title", .text "Droplet height map"), ("xlabel", .text "x (nm)"), ("ylabel", .text "y (nm)")]

/-- `view_quiver_cli` (strata/strata.py:967-977). -/
def quiverCli (files : List String) (kwargs : Kw) : Call := ⟨"view_flowfields", files.map .text, ("cutoff_label", .text "M") :: kwargs⟩

/-- Options of `sample` (strata/strata.py:983-1008). -/
def sampleOptions : Kw :=
  [("output", .text "sample.xvg"), ("dt", .num 1), ("process", .text "mean"), ("cutoff", .none), ("cutoff_label", .none), ("slip_floor", .num 0), ("verbose", .bool true)] ++ limitOptions ++
    rangeOptions ++ [("ext", .text ".dat")]

/-- `sample_average_cli` (strata/strata.py:1009-1015). -/
def sampleCli (base : Arg) (labels : List String) (kwargs : Kw) : Except Err Call := do
  let k ← setEnd kwargs
  let k ← processToSum k
  return ⟨"sample_average_files", [base, .list labels], k⟩

end Strata.Commands
