import Verif.Model.Commands
/-!
# Model of the figures: `decorate_graph` (`strata/utils.py`), `create_figure` and the drawing functions of `strata/view_flowmap.py`

What is modelled is the sequence of calls of Matplotlib with their arguments; what Matplotlib does with them is not (the number of pixels of a saved figure is its size in inches
times the resolution of `savefig`, `Spec.Figure`).
-/
namespace Strata.Figure
open Strata Strata.Commands

/-- Calls of Matplotlib. -/
inductive Act where
  | newFigure (inches : Option (ℚ × ℚ)) (dpi : Arg)
  | draw (kwargs : Kw)
  | title (a : Arg)
  | xlabel (a : Arg)
  | ylabel (a : Arg)
  | logScales
  | axis (a : Arg)
  | xlim (a : Arg)
  | ylim (a : Arg)
  | colormap (a : Arg)
  | colorbar (label ticks ticklabels : Option Arg)
  | legend
  | axesOff
  | tightLayout
  | save (path dpi transparent : Arg)
  | show_
  | clear
  deriving DecidableEq, Repr

/-- `key_defaults` (strata/utils.py:330-336): the options of the figure with their defaults. -/
def keyDefaults : Kw :=
  [("title", .text ""), ("xlabel", .text ""), ("ylabel", .text ""), ("xlim", .none), ("ylim", .none), ("save_fig", .none), ("axis", .none), ("colormap", .none), ("cbarlabel", .none),
    ("cbarticks", .none), ("cbarticklabels", .none), ("show", .bool true), ("clf", .bool true), ("loglog", .bool false), ("colorbar", .bool false), ("legend", .bool false),
    ("noaxis", .bool false), ("transparent", .bool false), ("dpi", .num 150)]

/-- `pop_figure_kwargs` (strata/utils.py:329-342): the options of the figure, and what is left for the drawing function. -/
def popFigure (kwargs : Kw) : Kw × Kw :=
  (keyDefaults.map fun d => (d.1, (kwargs.lookup d.1).getD d.2), keyDefaults.foldl (fun k d => remove k d.1) kwargs)

/-- `fargs[name]` (strata/utils.py:347-399). -/
def farg (fargs : Kw) (name : String) : Arg := (fargs.lookup name).getD .none

/-- The option if it is true (strata/utils.py:378-385). -/
def ifTrue (a : Arg) : Option Arg := if truthy a then some a else none

/-- What is done after drawing (strata/utils.py:347-407).  Colour maps that do not exist are reported only. -/
def decorations (f : Kw) : List Act :=
  [.title (farg f "title"), .xlabel (farg f "xlabel"), .ylabel (farg f "ylabel")] ++
  (if truthy (farg f "loglog") then [.logScales] else []) ++
  (if truthy (farg f "axis") then [.axis (farg f "axis")] else []) ++
  [.xlim (farg f "xlim"), .ylim (farg f "ylim")] ++
  (if farg f "colormap" ≠ .none then [.colormap (farg f "colormap")] else []) ++
  (if truthy (farg f "colorbar") then [.colorbar (ifTrue (farg f "cbarlabel")) (ifTrue (farg f "cbarticks")) (ifTrue (farg f "cbarticklabels"))] else []) ++
  (if truthy (farg f "legend") then [.legend] else []) ++
  (if truthy (farg f "noaxis") then [.axesOff] else []) ++
  [.tightLayout] ++
  (if farg f "save_fig" ≠ .none then [.save (farg f "save_fig") (farg f "dpi") (farg f "transparent")] else []) ++
  (if truthy (farg f "show") then [.show_] else []) ++
  (if truthy (farg f "clf") then [.clear] else [])

/-- `graph_wrapper` (strata/utils.py:328-407) around a drawing function: the calls made, and the error if the drawing fails (then nothing more is done). -/
def graph (draw : Kw → Except Err (List Act)) (kwargs : Kw) : Except Err (List Act) := do
  let p := popFigure kwargs
  let drawn ← draw p.2
  return drawn ++ decorations p.1

/-- A number of an option; Python divides by it (strata/view_flowmap.py:295). -/
def divBy (a : Option ℚ) (d : Arg) : Except Err ℚ :=
  match a, d with
  | none, _ => .error .typeError
  | some w, .num q => if q = 0 then .error .zeroDivisionError else .ok (w / q)
  | some _, _ => .error .typeError

/-- `create_figure` (strata/view_flowmap.py:287-300): dimensions that are no pair are passed over, a pair with a missing number fails. -/
def createFigure (kwargs : Kw) : Except Err (List Act) :=
  let dpi := (kwargs.lookup "dpi").getD (.num 300)
  match (kwargs.lookup "dims").getD .none with
  | .pair w h => do
    let a ← divBy w dpi
    let b ← divBy h dpi
    return [.newFigure (some (a, b)) dpi]
  | _ => .ok [.newFigure none dpi]

/-- The drawing functions `height`, `contour` and `plot_quiver` (strata/view_flowmap.py:303-346, :208-220) once their data are at hand: the figure, then one drawing call. -/
def drawMap (kwargs : Kw) : Except Err (List Act) := do
  let f ← createFigure kwargs
  return f ++ [.draw kwargs]

/-- The figure of one map (strata/view_flowmap.py:69, :283). -/
def mapFigure (kwargs : Kw) : Except Err (List Act) := graph drawMap kwargs

/-- `kwargs.setdefault(name, value)` (strata/view_flowmap.py:257-259). -/
def setDefault (k : Kw) (name : String) (value : Arg) : Kw := if (k.lookup name).isSome then k else k ++ [(name, value)]

/-- The figures of `view_flowmap_2d` for maps whose data can be drawn (strata/view_flowmap.py:256-284): the same options for every map, and the figure is cleared after each. -/
def mapFigures (maps : ℕ) (kwargs : Kw) : Except Err (List Act) := do
  let k := ["label", "type", "cutoff", "cutoff_label"].foldl remove kwargs
  let k := setDefault (setDefault (setDefault k "axis" (.text "scaled")) "noaxis" (.bool true)) "coord_labels" (.list ["X", "Y"])
  let figs ← (List.range maps).mapM fun _ : ℕ => mapFigure k
  return (figs.map fun f => f ++ [.clear]).flatten

end Strata.Figure
