import Verif.Model.Figure
/-!
# Specification vocabulary for figures

The pictures a sequence of calls of Matplotlib leaves on the disk, the options of the figure, and the order in which a figure is made.
-/
namespace Strata.Figure
open Strata Strata.Commands

/-- A saved picture: its path and its size in pixels (none: Matplotlib's default size). -/
structure Picture where
  path : Arg
  pixels : Option (ℚ × ℚ)
  deriving DecidableEq, Repr

/-- The pictures saved by a sequence of calls, `inches` being the size of the current figure: a figure is saved with its size in inches times the resolution. -/
def pictures (inches : Option (ℚ × ℚ)) : List Act → List Picture
  | [] => []
  | .newFigure i _ :: rest => pictures i rest
  | .save p (.num d) _ :: rest => ⟨p, inches.map fun s => (s.1 * d, s.2 * d)⟩ :: pictures inches rest
  | _ :: rest => pictures inches rest

/-- The options that concern the figure as documented for `decorate_graph`. -/
def figureOptions : List String :=
  ["title", "xlabel", "ylabel", "xlim", "ylim", "save_fig", "axis", "colormap", "cbarlabel", "cbarticks", "cbarticklabels", "show", "clf", "loglog", "colorbar", "legend", "noaxis",
    "transparent", "dpi"]

/-- The stage of making a figure a call belongs to: drawing, then texts, scales, axes, limits, colours, legend, layout, saving, showing, clearing. -/
def stage : Act → ℕ
  | .newFigure .. => 0
  | .draw .. => 0
  | .title _ => 1
  | .xlabel _ => 2
  | .ylabel _ => 3
  | .logScales => 4
  | .axis _ => 5
  | .xlim _ => 6
  | .ylim _ => 7
  | .colormap _ => 8
  | .colorbar .. => 9
  | .legend => 10
  | .axesOff => 11
  | .tightLayout => 12
  | .save .. => 13
  | .show_ => 14
  | .clear => 15

/-- The dimensions asked for, if any. -/
def Dims (kwargs : Kw) (size : Option (ℚ × ℚ)) : Prop :=
  (∃ w h, kwargs.lookup "dims" = some (.pair (some w) (some h)) ∧ size = some (w, h)) ∨ ((kwargs.lookup "dims").getD .none = .none ∧ size = none)

/-- The resolution asked for. -/
def Dpi (kwargs : Kw) (d : ℚ) : Prop := kwargs.lookup "dpi" = some (.num d) ∨ (kwargs.lookup "dpi" = none ∧ d = 150)

end Strata.Figure
