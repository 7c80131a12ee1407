import Verif.Model.InterfaceText
/-!
# Model of `view_interfaces` on files (`strata/interface/view.py`): averages, figures and what is saved

Drawing is left out: `draw` says whether Matplotlib accepts a figure (with the path it is saved to).  Figures are not part of the file
system: Matplotlib replaces existing ones.
-/
namespace Strata.InterfaceView
open Strata Strata.Files Strata.InterfaceFiles Strata.InterfaceText

variable {γ : Type}

/-- The averaged interface of the files of a group (`read_interface_files`, `average_interfaces`, strata/interface/view.py:74-77, :118-129). -/
def groupInterface (text : γ → Text) (fs : FS γ) (names : List Text) : Except Err (List Point) := do
  averageInterfaces (← readSeries text fs names)

/-- What a call leaves: files, the interfaces returned, the figures drawn (with the path they are saved to) and how it ends. -/
structure Viewed (γ : Type) where
  fs : FS γ
  interfaces : List (List Point)
  figures : List (Option Text × List Point)
  outcome : Except Err Unit

/-- The writing of an average (strata/interface/view.py:83-84): the path is prepared and then the series has no entry `'X'`
(strata/interface/collect.py:307, :367). -/
def saveAverage (fs : FS γ) (out : Text) : FS γ × Except Err Unit :=
  match preparePath fs (splitPath out) with
  | .error e => (fs, .error e)
  | .ok fs' => (fs', .error .keyError)

/-- The loop of `view_interfaces` (strata/interface/view.py:74-97) with `n` the next number of a figure: groups that cannot be read or averaged use up a number.
An interface with less than two points is not drawn. -/
def viewLoop (text : γ → Text) (draw : Option Text → List Point → Except Err Unit) (save : Bool) (saveFig : Option Text) (figext : Text) (fs : FS γ) :
    ℤ → List (List Text × Text) → Viewed γ
  | _, [] => ⟨fs, [], [], .ok ()⟩
  | n, (names, out) :: rest =>
    match groupInterface text fs names with
    | .error _ => viewLoop text draw save saveFig figext fs (n + 1) rest
    | .ok p =>
      if save then ⟨(saveAverage fs out).1, [], [], (saveAverage fs out).2⟩
      else
        let r := viewLoop text draw save saveFig figext fs (if saveFig.isSome then n + 1 else n) rest
        let name := saveFig.map fun b => fileName b figext n
        if 1 < p.length then
          match draw name p with
          | .error e => ⟨fs, [], [], .error e⟩
          | .ok () => ⟨r.fs, p :: r.interfaces, (name, p) :: r.figures, r.outcome⟩
        else ⟨r.fs, p :: r.interfaces, r.figures, r.outcome⟩

/-- `view_interfaces` (strata/interface/view.py:10-102) without `outext`; the figures are numbered from `ceil(begin / average)` (`gen_figure_filenames`,
strata/interface/view.py:48-51). -/
def viewSeries (text : γ → Text) (draw : Option Text → List Point → Except Err Unit) (fs : FS γ) (dir : Dir) (base : Text) (average : ℕ) (saveXvg : Text) (saveFig : Option Text)
    (figext ext : Text) (begin_ : ℤ) (end_ : Option ℤ) : Viewed γ :=
  viewLoop text draw (decide (saveXvg ≠ [])) saveFig figext fs (ceilDiv begin_ average) (findGroupsToSingles dir base saveXvg ext none average false begin_ end_)

/-! ## Edges of several interfaces -/

/-- `all_coords_to_edges` (strata/interface/view.py:205-227): positions by height of the left and right halves; the halves are those of the list of positions. -/
def allEdges (xs ys : List (List ℚ)) : List Side × List Side :=
  let half (a : List ℚ) : ℕ := a.length / 2
  (List.zipWith (fun x y : List ℚ => (y.take (half x)).zip (x.take (half x))) xs ys, List.zipWith (fun x y : List ℚ => (y.drop (half x)).zip (x.drop (half x))) xs ys)

/-- `pd.DataFrame(list of series).T` (strata/interface/view.py:199-200) by height and number of the interface; none is NaN (or no such entry). -/
def frame (sides : List Side) (y : ℚ) (k : ℕ) : Option ℚ := (sides[k]?).bind fun s => s.lookup y

/-- `combine_interfaces` (strata/interface/view.py:188-202); for heights that occur once in an edge. -/
def combineInterfaces (xs ys : List (List ℚ)) : (ℚ → ℕ → Option ℚ) × (ℚ → ℕ → Option ℚ) :=
  (frame (allEdges xs ys).1, frame (allEdges xs ys).2)

end Strata.InterfaceView
