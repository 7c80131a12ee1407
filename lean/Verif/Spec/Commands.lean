import Verif.Model.Commands
/-!
# Specification: the documented options of the commands

The tables follow the help texts, which end with the default value in parentheses.
-/
namespace Strata.Spec
open Strata Strata.Commands

/-- The value of an option: that given on the command line or the default value. -/
def valueOf (given : Kw) (name : String) (default : Arg) : Arg := (given.lookup name).getD default

/-- Without a last number, reading goes on without bound. -/
def boundOf (v : Arg) : Arg := if v = .none then .inf else v

/-- The function gets exactly these keyword arguments: those of `options` with the values from the command line or their defaults, and `other`. -/
def Gets (call : Call) (given options other : Kw) : Prop :=
  ∀ name, call.kwargs.lookup name = ((options.map fun o => (o.1, valueOf given o.1 o.2)) ++ other).lookup name

/-- "End reading from BASE at this number. (None)" -/
def lastNumber (given : Kw) : String × Arg := ("end", boundOf (valueOf given "end" .none))

/-- Limits on the axes; no limits by default. -/
def limits : Kw := [("xlim", .pair none none), ("ylim", .pair none none)]

/-- `strata average`. -/
def averageDoc : Kw :=
  [("combine", .pair none none), ("supersample", .none), ("rolling", .bool false), ("floor", .none), ("cutoff", .num 0), ("cutoff_bins", .num 1), ("cutoff_radius", .num 1)] ++ limits ++
    [("begin", .num 1), ("ext", .text ".dat")]

/-- `strata convert`. -/
def convertDoc : Kw := [("ftype", .text "gmx"), ("begin", .num 1), ("ext", .text ".dat")]

/-- `strata spreading collect` (the cut-off: `None` stands for 0, "(0)" in the help text). -/
def collectDoc : Kw := [("dt", .num 1), ("cutoff", .none), ("cutoff_radius", .num 1), ("cutoff_bins", .num 1), ("t0", .num 0), ("begin", .num 1), ("ext", .text ".dat")]

/-- `strata spreading view`. -/
def spreadingViewDoc : Kw :=
  [("tau", .num 1), ("R", .num 1), ("sync_radius", .none), ("save_fig", .none), ("save_xvg", .none), ("show", .bool true), ("loglog", .bool false)] ++ limits ++
    [("title", .text "Droplet spreading"), ("xlabel", .text "Time (ps)"), ("ylabel", .text "Radius (nm)")]

/-- `strata spreading fit`. -/
def spreadingFitDoc : Kw :=
  [("lims", .pair none none), ("out_lims", .pair none none), ("save_fig", .none), ("save_xvg", .none), ("show", .bool true), ("loglog", .bool false), ("legend", .bool true)] ++ limits ++
    [("title", .text "Droplet spreading with fit"), ("xlabel", .text "Time (ps)"), ("ylabel", .text "Radius (nm)")]

/-- `strata interface collect`. -/
def interfaceCollectDoc : Kw := [("cutoff", .none), ("cutoff_radius", .num 1), ("cutoff_bins", .num 1), ("ylims", .pair none none), ("begin", .num 1), ("ext", .text ".dat")]

/-- `strata interface view`. -/
def interfaceViewDoc : Kw :=
  [("average", .num 1), ("save_fig", .none), ("save_xvg", .text ""), ("show", .bool true)] ++ limits ++
    [("title", .text "Droplet interface"), ("xlabel", .text "x (nm)"), ("ylabel", .text "y (nm)"), ("begin", .num 1), ("ext", .text ".xvg"), ("extfig", .text ".png")]

/-- `strata interface sample`. -/
def interfaceSampleDoc : Kw :=
  [("save_fig", .none), ("save_xvg", .text ""), ("delta_t", .num 1), ("show", .bool true)] ++ limits ++
    [("title", .text "Droplet interface"), ("xlabel", .text "t (ps)"), ("begin", .num 1), ("ext", .text ".xvg"), ("extfig", .text ".png")]

/-- `strata interface angle`. -/
def interfaceAngleDoc : Kw :=
  [("fit", .bool false), ("height", .none), ("delta_t", .num 1), ("save_fig", .none), ("save_xvg", .none), ("show", .bool false)] ++ limits ++
    [("title", .text "Contact angles"), ("xlabel", .text "t (ps)"), ("ylabel", .text "angle (deg.)"), ("begin", .num 1), ("ext", .text ".xvg")]

/-- `strata contact_line collect`. -/
def extractDoc : Kw :=
  [("average", .num 1), ("rolling", .bool false), ("recenter", .bool true), ("fuse", .bool false), ("floor", .none), ("extract_area", .pair (some 1) (some 1)), ("extract_height", .num 0),
    ("cutoff", .none), ("cutoff_radius", .num 1), ("cutoff_bins", .num 1), ("begin", .num 1), ("ext", .text ".dat")]

/-- `strata contact_line sample`, without the size of the extracted area. -/
def contactSampleDoc : Kw :=
  [("average", .num 1), ("rolling", .bool false), ("recenter", .bool true), ("floor", .none), ("extract_height", .num 0), ("dt", .num 1), ("cutoff", .none), ("cutoff_radius", .num 1),
    ("cutoff_bins", .num 1), ("save", .none), ("begin", .num 1), ("ext", .text ".dat")]

/-- Options of colour bars. -/
def barDoc : Kw := [("cbarlabel", .none), ("cbarticks", .none), ("cbarticklabels", .none), ("colormap", .text "viridis")]

/-- `strata view contour`. -/
def contourDoc : Kw :=
  [("save_fig", .none), ("label", .text "M"), ("num_contours", .num 10), ("contour_levels", .none), ("contour_colours", .none), ("filled", .bool false), ("vlim", .pair none none),
    ("colorbar", .bool false)] ++ barDoc ++ [("show", .bool true), ("transparent", .bool false), ("noaxis", .bool false), ("dims", .none)] ++ limits ++
    [("title", .text "Droplet contours"), ("xlabel", .text "x (nm)"), ("ylabel", .text "y (nm)")]

/-- `strata view height`, without the options for hiding the axes. -/
def heightDoc : Kw :=
  [("save_fig", .none), ("label", .text "M"), ("clim", .pair none none), ("vlim", .pair none none), ("cutoff_label", .none), ("cutoff", .none), ("colorbar", .bool true)] ++ barDoc ++
    [("transparent", .bool false), ("show", .bool true), ("dpi", .num 150), ("dims", .none)] ++ limits ++
    [("title", .text "Droplet height map"), ("xlabel", .text "x (nm)"), ("ylabel", .text "y (nm)")]

/-- `strata view flow`, without the option for a colour bar; 3 / 2000 is the documented width 0.0015. -/
def quiverDoc : Kw :=
  [("save_fig", .none), ("cutoff", .none), ("colour", .text "T"), ("scale", .num 1), ("width", .num (3 / 2000)), ("pivot", .text "middle"), ("streamlines", .bool false),
    ("vlim", .pair none none)] ++ barDoc ++ [("show", .bool true), ("transparent", .bool false), ("noaxis", .bool false), ("dpi", .num 150), ("dims", .none)] ++ limits ++
    [("title", .text "Droplet height map"), ("xlabel", .text "x (nm)"), ("ylabel", .text "y (nm)")]

/-- `strata sample`. -/
def sampleDoc : Kw :=
  [("output", .text "sample.xvg"), ("dt", .num 1), ("cutoff", .none), ("cutoff_label", .none), ("slip_floor", .num 0), ("verbose", .bool true)] ++ limits ++
    [("begin", .num 1), ("ext", .text ".dat")]

/-- `--process sum` asks for sums, otherwise means are sampled. -/
def asksSum (given : Kw) : Arg := .bool (decide (valueOf given "process" (.text "mean") = .text "sum"))

end Strata.Spec
