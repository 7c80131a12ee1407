import Verif.Model.InterfaceText
/-!
# Model of file options and of the headers of saved files

Options given by keyword are a list of names and values; values are texts, as `%r` prints them.
-/
namespace Strata.Headers
open Strata Strata.SpreadingText Strata.InterfaceText

/-- Keyword arguments: names are different (strata/utils.py:208). -/
abbrev Kwargs := List (String × Text)

/-- `kwargs.get(name, default)` (strata/interface/sample.py:172-173). -/
def get (k : Kwargs) (name : String) (default : Text) : Text := (k.lookup name).getD default

/-- `kwargs.pop(name, …)`: what is left (strata/utils.py:228-230). -/
def without (k : Kwargs) (name : String) : Kwargs := k.filter fun e => e.1 ≠ name

/-- `kwargs.setdefault(name, value)` (strata/interface/sample.py:38). -/
def setDefault (k : Kwargs) (name : String) (value : Text) : Kwargs := if (k.lookup name).isSome then k else k ++ [(name, value)]

/-- `a.update(b)` (strata/interface/sample.py:35): the values of `b` come first, so that they are found. -/
def update (a b : Kwargs) : Kwargs := b ++ a.filter fun e => !(b.lookup e.1).isSome

/-- `pop_fileopts` (strata/utils.py:208-236): the file options and what is left; `outext` is read but not removed. -/
def popFileopts (k : Kwargs) : Kwargs × Kwargs :=
  ([("begin", get k "begin" "1".toList), ("end", get k "end" "inf".toList), ("ext", get k "ext" "'.dat'".toList), ("outext", get k "outext" (get k "ext" "'.dat'".toList))],
    without (without (without k "begin") "end") "ext")

/-- Date and version (strata/utils.py:431-437). -/
structure Stamp where
  date : Text
  version : Text

/-- The header of the file of `sample_interfaces` (strata/interface/sample.py:34-44, 153-176); `delta_t` is a named argument and `kwargs['dt']` is printed.  `base` is the real path as printed. -/
def sampleHeader (s : Stamp) (base variable_ _deltaT : Text) (kwargs : Kwargs) : List Text :=
  let p := popFileopts (setDefault kwargs "ext" "'.xvg'".toList)
  let opts := update p.2 p.1
  sampleHead s.date s.version base variable_ (get opts "begin" "None".toList) (get opts "end" "None".toList) (get opts "dt" "1.0".toList)

/-- The header of the file of `interface_contact_angle` (strata/interface/angle.py:94-96, 143-170); only `begin` and `end` are passed on. -/
def angleHeader (s : Stamp) (base height _deltaT : Text) (kwargs : Kwargs) : List Text :=
  let p := popFileopts (setDefault kwargs "ext" "'.xvg'".toList)
  let opts : Kwargs := [("begin", get p.1 "begin" []), ("end", get p.1 "end" [])]
  angleHead s.date s.version base (get opts "begin" "None".toList) (get opts "end" "None".toList) height (get opts "delta_t" "1.0".toList)

/-- The options of a series sampled by `sample_average_files` or `sample_contact_line_edges` that are named arguments (strata/sample_average.py:13-15,
strata/contact_line_analysis.py:90-93). -/
structure SeriesOpts where
  labels : Text
  cutoff : Text
  cutoffLabel : Text
  dt : Text
  average : Text
  rolling : Text

/-- The first lines of a file (`write_module_header`, strata/utils.py:424-440). -/
def moduleHeader (s : Stamp) (title module_ : Text) : List Text :=
  ["# ".toList ++ title, "# ".toList, "# Created by module: ".toList ++ module_, "# Creation date: ".toList ++ s.date, "# Using module version: ".toList ++ s.version, "# ".toList]

/-- The header of the file of `sample_average_files` (strata/sample_average.py:84-98, 247-272); the names of the columns are `columns`. -/
def averageHeader (s : Stamp) (base columns : Text) (o : SeriesOpts) (kwargs : Kwargs) : List Text :=
  let p := popFileopts kwargs
  let opts := update p.2 p.1
  moduleHeader s "Sample average of data from a simulation".toList "strata.sample_average".toList ++
  ["# Input:".toList, "#   Sample data labels: ".toList ++ o.labels, "#   File base path: ".toList ++ base,
    "#   Begin, end: ".toList ++ get opts "begin" "None".toList ++ ", ".toList ++ get opts "end" "None".toList, "#   Delta-t: ".toList ++ get opts "dt" "1.0".toList,
    "#   Cut-off: ".toList ++ o.cutoff, "#   Cut-off label: ".toList ++ o.cutoffLabel, "# ".toList, "# Time (ps) ".toList ++ columns]

/-- The header of the file of `sample_contact_line_edges` (strata/contact_line_analysis.py:131-145, 467-493). -/
def contactLineHeader (s : Stamp) (base columns : Text) (o : SeriesOpts) (kwargs : Kwargs) : List Text :=
  let p := popFileopts kwargs
  let opts := update p.2 p.1
  moduleHeader s "Sample average of contact line data from a simulation".toList "strata.contact_line_analysis".toList ++
  ["# Input:".toList, "#   Sample data labels: ".toList ++ o.labels, "#   Average over # files: ".toList ++ o.average, "#   Rolling average: ".toList ++ o.rolling,
    "#   File base path: ".toList ++ base, "#   Begin, end: ".toList ++ get opts "begin" "None".toList ++ ", ".toList ++ get opts "end" "None".toList,
    "#   Delta-t: ".toList ++ get opts "dt" "1.0".toList, "#   Cut-off: ".toList ++ o.cutoff, "#   Cut-off label: ".toList ++ o.cutoffLabel, "# ".toList, "# Time (ps) ".toList ++ columns]

/-- The header of the file of `collect` of spreading (strata/spreading/collect.py:67-92, 331-370), all options by keyword: the radius printed is that of another name. -/
def spreadingHeader (s : Stamp) (base : Text) (kwargs : Kwargs) : List Text :=
  let p := popFileopts kwargs
  let opts := update (without p.2 "save") p.1
  headerLines ⟨s.date, s.version, base, get opts "begin" "None".toList, get opts "end" "None".toList, get opts "floor" "None".toList, get opts "dt" "1.0".toList, get opts "cutoff" "None".toList,
    get opts "include_radius" "1.0".toList, get opts "cutoff_bins" "1".toList⟩

/-- The options `collect` of spreading works with (strata/spreading/collect.py:96-98, 111-117 and the defaults of droplets/interface.py:128-160): `dt` and the radius. -/
def spreadingUsed (kwargs : Kwargs) : Text × Text := (get kwargs "dt" "1.0".toList, get kwargs "cutoff_radius" "1.0".toList)

/-- The header of an interface file written by `collect_interfaces` from the map `input` to the file `output` (strata/interface/collect.py:39-44, 68, 307-362). -/
def collectHeader (s : Stamp) (dir recenter _input output : Text) (kwargs : Kwargs) : List Text :=
  let k := setDefault (setDefault (setDefault (setDefault kwargs "cutoff" "None".toList) "cutoff_radius" "None".toList) "cutoff_bins" "1".toList) "outext" "'.xvg'".toList
  let opts := without (popFileopts k).2 "quiet"
  headLines ⟨s.date, s.version, dir, [output], recenter, match opts.lookup "cutoff", opts.lookup "cutoff_radius", opts.lookup "cutoff_bins" with
    | some a, some b, some c => some (a, b, c)
    | _, _, _ => none⟩

end Strata.Headers
