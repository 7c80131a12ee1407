import Verif.Model.SpreadingText
import Mathlib.Analysis.SpecialFunctions.Pow.Real
import Mathlib.Analysis.SpecialFunctions.Log.Base
/-!
# Model of the power law fit and of the commands drawing spreading curves (`strata/spreading/fit.py`, `strata/spreading/view.py`)

The parameters of a fit are real numbers.  `scipy.optimize.leastsq` and the drawing of matplotlib are outside the model: the first is a parameter,
the calls of the second are listed as effects.
-/
namespace Strata.SpreadingFit
open Strata Strata.Files Strata.PyText Strata.Spreading Strata.Cli Strata.SpreadingText

/-- A series of times and radii with its name. -/
abbrev NamedSeries := Text × Series

/-! ## The fit -/

/-- The points selected for a fit (strata/spreading/fit.py:84-85): those in the limits, at positive times. -/
def fitPoints (s : Series) (lims : Option ℚ × Option ℚ) : List (ℚ × ℚ) :=
  ((s.zip (indsInLimits s lims.1 lims.2)).filter fun p => decide (0 < p.1.1) && p.2).map Prod.fst

/-- `np.log10` of a number (strata/spreading/fit.py:87-88): no finite number unless it is positive. -/
noncomputable def log10 (x : ℚ) : Option ℝ := if 0 < x then some (Real.logb 10 x) else none

/-- `scipy.optimize.leastsq` for the residuals `y - (a + b * x)` (strata/spreading/fit.py:77-81, 92-93): the found `(a, b)` from the logarithms of the
times, which are positive, and of the radii. -/
abbrev Leastsq := List (ℝ × Option ℝ) → ℝ × ℝ

/-- `fit_series` (strata/spreading/fit.py:74-97).  With fewer points than parameters `leastsq` raises `TypeError`. -/
noncomputable def fitSeries (lsq : Leastsq) (lims : Option ℚ × Option ℚ) (s : Series) : Except Err (ℝ × ℝ) :=
  if (fitPoints s lims).length < 2 then .error .typeError
  else
    let p := lsq ((fitPoints s lims).map fun p => (Real.logb 10 p.1, log10 p.2))
    .ok ((10 : ℝ) ^ p.1, p.2)

/-- `get_fitting_parameters` (strata/spreading/fit.py:58-101). -/
noncomputable def fittingParameters (lsq : Leastsq) (lims : Option ℚ × Option ℚ) (data : List NamedSeries) : Except Err (List (ℝ × ℝ)) :=
  data.mapM fun s => fitSeries lsq lims s.2

/-! ## The fitted curves -/

/-- A floating point result which may be infinite or not a number. -/
inductive Power where
  | num (x : ℝ)
  | inf
  | nan

/-- `a*x**k` of NumPy for positive `a` (strata/spreading/fit.py:123). -/
noncomputable def power (a k : ℝ) (t : ℚ) : Power :=
  open Classical in
  if 0 < t then .num (a * (t : ℝ) ^ k)
  else if t = 0 then (if k < 0 then .inf else if k = 0 then .num a else .num 0)
  else if ∃ n : ℤ, k = n then .num (a * (t : ℝ) ^ k) else .nan

/-- A fitted curve. -/
structure Fitted where
  name : Text
  points : List (ℚ × Power)

/-- `get_series` (strata/spreading/fit.py:120-131); `fmt` is `'%.3f'`. -/
noncomputable def fittedSeries (fmt : ℝ → Text) (outLims : Option ℚ × Option ℚ) (s : NamedSeries) (p : ℝ × ℝ) : Fitted :=
  ⟨s.1 ++ " a=".toList ++ fmt p.1 ++ ", k=".toList ++ fmt p.2,
    ((s.2.zip (indsInLimits s.2 outLims.1 outLims.2)).filter Prod.snd).map fun q => (q.1.1, power p.1 p.2 q.1.1)⟩

/-- `get_fitted_data` (strata/spreading/fit.py:104-136). -/
noncomputable def fittedData (fmt : ℝ → Text) (outLims : Option ℚ × Option ℚ) (params : List (ℝ × ℝ)) (data : List NamedSeries) : List Fitted :=
  List.zipWith (fittedSeries fmt outLims) data params

/-- `text.strip(chars)` (strata/spreading/fit.py:175). -/
def stripChars (chars s : Text) : Text := ((s.dropWhile (· ∈ chars)).reverse.dropWhile (· ∈ chars)).reverse

/-- The label of a fitted curve in the legend (strata/spreading/fit.py:175) from the names of the fitted and of the original series. -/
def fitLabel (fitName dataName : Text) : Text := strip (stripChars dataName fitName)

/-! ## Drawing and saving -/

/-- The options of a figure that decide what happens to it (strata/utils.py:329-342). -/
structure FigOpts where
  saveFig : Option Text := none
  show_ : Bool := true
  clf : Bool := true

/-- What is done. -/
inductive Effect (γ : Type) where
  | write (path : Text) (data : γ)
  | draw (data : γ)
  | savefig (path : Text)
  | showfig
  | clear

/-- `decorate_graph` (strata/utils.py:291-409): what is done besides decorating the figure. -/
def decorateGraph {γ : Type} (o : FigOpts) (data : γ) : List (Effect γ) :=
  .draw data :: ((o.saveFig.elim [] fun p => [.savefig p]) ++ (if o.show_ then [.showfig] else []) ++ if o.clf then [.clear] else [])

/-- `fit_spreading_data` (strata/spreading/fit.py:11-55) for the series read from the files: the parameters and what was done. -/
noncomputable def fitSpreading (lsq : Leastsq) (fmt : ℝ → Text) (data : List NamedSeries) (lims outLims : Option ℚ × Option ℚ) (saveXvg : Option Text) (o : FigOpts) :
    Except Err (List (ℝ × ℝ) × List (Effect (List Fitted))) := do
  let params ← fittingParameters lsq lims data
  let fitted := fittedData fmt outLims params data
  .ok (params, (saveXvg.elim [] fun p => [.write p fitted]) ++ if o.show_ then decorateGraph o fitted else [])

/-- `view_spreading` (strata/spreading/view.py:12-65) for the series read from the files: `combine` is the scaling and synchronisation, `saveXvg` the argument
`save_xvg`, `none` if it is not given.  Errors of writing are printed only. -/
def viewSpreading (combine : List NamedSeries → Except Err (List NamedSeries)) (data : List NamedSeries) (saveXvg : Option (Option Text)) (o : FigOpts) :
    Except Err (List (Effect (List NamedSeries))) := do
  let synced ← combine data
  let path ← saveXvg.elim (.error .keyError) .ok
  .ok ((path.elim [] fun p => if p = [] then [] else [.write p synced]) ++
    if o.show_ = true ∨ (o.saveFig ≠ none ∧ 0 < data.length) then decorateGraph o synced else [])

end Strata.SpreadingFit
