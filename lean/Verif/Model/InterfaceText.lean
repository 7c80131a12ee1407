import Verif.Model.InterfaceFiles
import Verif.Model.SpreadingText
/-!
# Model of interface files as text (`strata/interface/{collect,sample,angle,view}.py`)

Texts are ASCII with `'\n'` as line end (files are opened in text mode, which translates other line ends).  Numbers are exact: reading does not
round to the nearest double.
-/
namespace Strata.InterfaceText
open Strata Strata.Files Strata.PyText Strata.Flow Strata.Interface Strata.InterfaceFiles Strata.Cli Strata.SpreadingText

/-! ## Writing of interfaces -/

/-- The texts inserted into the header of an interface file by `%s` and `%r` (strata/interface/collect.py:327-362). -/
structure Head where
  date : Text
  version : Text
  dir : Text
  /-- the files named as input files (`fngroup`) -/
  inputs : List Text
  recenter : Text
  /-- `cutoff`, `cutoff_radius` and `cutoff_bins`; none if one of the options is missing, as in a call from `view_interfaces` -/
  options : Option (Text × Text × Text)

/-- The lines about the options (strata/interface/collect.py:343-358). -/
def optionLines (h : Head) : List Text :=
  match h.options with
  | some (cutoff, radius, bins) =>
    ["# Input options:".toList, "#   Recenter: ".toList ++ h.recenter, "#   Mass cut-off: ".toList ++ cutoff, "#   Radius cut-off: ".toList ++ radius,
      "#   Required # of bins: ".toList ++ bins, "# ".toList]
  | none => ["# Input options: See original files.".toList, "# ".toList]

/-- The lines of the header of an interface file (`get_header`, strata/interface/collect.py:321-362). -/
def headLines (h : Head) : List Text :=
  ["# Interface coordinates of a droplet".toList, "# ".toList, "# Created by module: strata.interface.collect".toList, "# Creation date: ".toList ++ h.date,
    "# Using module version: ".toList ++ h.version, "# ".toList, "# Working directory: '".toList ++ h.dir ++ "'".toList, "# Input files:".toList] ++
  h.inputs.map (fun n => "#   '".toList ++ n ++ "'".toList) ++ ["# ".toList] ++ optionLines h ++ ["# x (nm) y (nm)".toList]

/-- One row written by `np.savetxt(path, data, fmt='%.3f', delimiter=' ')` (strata/interface/collect.py:367-369). -/
def pointLine (p : Point) : Text := fixed 3 p.x ++ ' ' :: fixed 3 p.y

/-- The file written by `write_interface_data` (strata/interface/collect.py:307-369). -/
def interfaceFile (h : Head) (pts : List Point) : Text := joinLines (headLines h ++ pts.map pointLine)

/-! ## Reading of interfaces -/

/-- The result of `xs, ys = np.genfromtxt(file, unpack=True)`: arrays or, if the file has a single row (or two rows with one number), two numbers
(strata/interface/angle.py:195, strata/interface/view.py:146). -/
inductive Coords where
  | arrays (xs ys : List Value)
  | scalars (x y : Value)
  deriving DecidableEq, Repr

/-- The words of the lines that are not empty, without comments: the rows of the table of `np.genfromtxt` (strata/interface/view.py:146). -/
def tableWords (content : Text) : List (List Text) := ((fileLines content).map fun l => words (l.takeWhile (· ≠ '#'))).filter (· ≠ [])

/-- `np.genfromtxt(file, unpack=True)` unpacked into two variables (strata/interface/angle.py:195, strata/interface/view.py:146).  A word that is not a
number is read as NaN; rows of different lengths raise `ValueError`; so does the unpacking if there are not two columns.  A table with one row or
column is reduced to a vector, one with a single entry cannot be unpacked (`TypeError`). -/
def readCoords (content : Text) : Except Err Coords :=
  match (tableWords content).map (List.map fun w => (float? w).getD .nan) with
  | [] => .error .valueError
  | r :: rs =>
    if rs.all fun q => q.length = r.length then
      match rs, r with
      | [], [_] => .error .typeError
      | [], [x, y] => .ok (.scalars x y)
      | [], _ => .error .valueError
      | [q], [x] => .ok (.scalars x (q.headD .nan))
      | rs, [x, y] => .ok (.arrays (x :: rs.map fun q => q.getD 0 .nan) (y :: rs.map fun q => q.getD 1 .nan))
      | _, _ => .error .valueError
    else .error .valueError

/-- The number, if it is finite (strata/interface/view.py:146). -/
def finite? : Value → Option ℚ
  | .num q => some q
  | _ => none

/-- The points of an interface file as used by the functions that sample it (strata/interface/sample.py:61, strata/interface/angle.py:195).  Two single
numbers raise `TypeError` in `len(xs)` (strata/interface/sample.py:109, strata/interface/angle.py:197, strata/interface/view.py:170).  Simplified: files with
NaN or infinite numbers are refused here. -/
def readPoints (content : Text) : Except Err (List Point) := do
  match ← readCoords content with
  | .scalars _ _ => .error .typeError
  | .arrays xs ys =>
    match xs.mapM finite?, ys.mapM finite? with
    | some a, some b => .ok (List.zipWith Point.mk a b)
    | _, _ => .error .valueError

/-! ## The series of files -/

section Files
variable {γ : Type}

/-- The content of a file; one that does not exist cannot be opened (strata/interface/collect.py:63, strata/interface/view.py:146). -/
def contentOf (fs : FS γ) (name : Text) : Except Err γ := (fs.get? (splitPath name)).elim (.error .osError) .ok

/-- The loop of `collect_interfaces` on a file system (strata/interface/collect.py:62-69): files read, interfaces written after a conflicting file was
backed up.  `read` reads a data map, `write` encodes a text, `head` are the texts of the header of a file. -/
def collectFiles (read : γ → Except Err Flow) (write : Text → γ) (head : Text → Head) (c : Centre) (o : Interface.Opts) :
    Memory → FS γ → List (Text × Text) → FS γ × Except Err Unit
  | _, fs, [] => (fs, .ok ())
  | m, fs, (fn, out) :: rest =>
    match (contentOf fs fn).bind read with
    | .error e => (fs, .error e)
    | .ok f =>
      match interfaceCoordinates f "M" m c o with
      | .error e => (fs, .error e)
      | .ok (pts, m') =>
        match preparePath fs (splitPath out) with
        | .error e => (fs, .error e)
        | .ok fs' => collectFiles read write head c o m' (fs'.put (splitPath out) (write (interfaceFile (head out) pts))) rest

/-- `collect_interfaces` (strata/interface/collect.py:39-75): the pairs of files are found before the loop; the extension of the output is '.xvg' if no
other is given.  `dir` are the names of existing files. -/
def collectSeries (read : γ → Except Err Flow) (write : Text → γ) (head : Text → Head) (c : Centre) (o : Interface.Opts) (fs : FS γ) (dir : Dir)
    (base output ext : Text) (outext : Option Text) (begin_ : ℤ) (end_ : Option ℤ) : FS γ × Except Err Unit :=
  collectFiles read write head c o none fs (findSinglesToSingles dir base output ext (some (outext.getD ".xvg".toList)) begin_ end_)

/-- The interfaces of the files with the names (strata/interface/sample.py:60-61, strata/interface/angle.py:71-72, strata/interface/view.py:121). -/
def readSeries (text : γ → Text) (fs : FS γ) (names : List Text) : Except Err (List (List Point)) :=
  names.mapM fun n => (contentOf fs n).bind fun c => readPoints (text c)

end Files

/-! ## Output of samples -/

/-- Rounding of a real number, halves to even: `'%.3f'` (strata/interface/sample.py:79, strata/interface/angle.py:188). -/
noncomputable def roundReal (x : ℝ) : ℤ :=
  if x - ⌊x⌋ < 1 / 2 then ⌊x⌋ else if 1 / 2 < x - ⌊x⌋ then ⌊x⌋ + 1 else if ⌊x⌋ % 2 = 0 then ⌊x⌋ else ⌊x⌋ + 1

/-- `'%.kf' % x` for a real number (strata/interface/sample.py:79, strata/interface/angle.py:188). -/
noncomputable def fixedReal (k : ℕ) (x : ℝ) : Text :=
  (if x < 0 then ['-'] else []) ++ decimal ((roundReal (|x| * 10 ^ k)).toNat / 10 ^ k) ++ '.' :: padded k ((roundReal (|x| * 10 ^ k)).toNat % 10 ^ k)

/-- `'%.kf' % x` if `x` may be NaN (strata/interface/angle.py:188). -/
noncomputable def fixedOption (k : ℕ) : Option ℝ → Text
  | some x => fixedReal k x
  | none => "nan".toList

/-- The header of a file of samples: title, module, options and the names of the columns (`write_module_header`, strata/utils.py:424-440, and `write_header`,
strata/interface/sample.py:153-176). -/
def sampleHead (date version base kind begin_ end_ dt : Text) : List Text :=
  ["# Samples of input interface files".toList, "# ".toList, "# Created by module: strata.interface.sample".toList, "# Creation date: ".toList ++ date,
    "# Using module version: ".toList ++ version, "# ".toList, "# Input:".toList, "#   File base path: ".toList ++ base, "#   Variable: ".toList ++ kind,
    "#   Begin, end: ".toList ++ begin_ ++ ", ".toList ++ end_, "#   Delta-t: ".toList ++ dt, "# ".toList,
    "# Time (ps) ".toList ++ (if kind = "'area'".toList then "Area (nm^2)".toList else "Circumference (nm)".toList)]

/-- A row of samples: `"%.3f %.3f\n" % (i*delta_t, sample)` (strata/interface/sample.py:77-79). -/
noncomputable def sampleLine (r : ℚ × ℝ) : Text := fixed 3 r.1 ++ ' ' :: fixedReal 3 r.2

/-- The variable that is sampled (strata/interface/sample.py:64-69). -/
inductive Variable where
  | area | length | other
  deriving DecidableEq, Repr

/-- One sample (strata/interface/sample.py:61-69): reading errors are not caught, those of sampling are handled by the loop. -/
noncomputable def sampleOf (v : Variable) (pts : List Point) : Except Err ℝ :=
  match v with
  | .area => (area (pts.map Point.x) (pts.map Point.y)).map fun a : ℚ => (a : ℝ)
  | .length => .ok (length (pts.map Point.x) (pts.map Point.y))
  | .other => .error .valueError

/-- The file left by `sample_interfaces` with `save_xvg` after the files with the interfaces `files` (strata/interface/sample.py:43-79): a header and a row per sample, appended
as soon as it is known. -/
noncomputable def sampleFile (head : List Text) (v : Variable) (dt : ℚ) (files : List (List Point)) : Text :=
  joinLines (head ++ (sampleLoop (sampleOf v) dt 0 files).1.map sampleLine)

/-- The header of a file of angles, without the names of the columns (strata/interface/angle.py:143-170). -/
def angleHead (date version base begin_ end_ height dt : Text) : List Text :=
  ["# Measured contact angles of system".toList, "# ".toList, "# Created by module: strata.interface.angle".toList, "# Creation date: ".toList ++ date,
    "# Using module version: ".toList ++ version, "# ".toList, "# Input:".toList, "#   File base path: ".toList ++ base,
    "#   Begin, end: ".toList ++ begin_ ++ ", ".toList ++ end_, "#   Measured at height: ".toList ++ height, "#   Delta-t: ".toList ++ dt,
    "#   Interface options: See original files.".toList, "# ".toList]

/-- The names of the columns (strata/interface/angle.py:174-183): those of lists that are not empty. -/
noncomputable def angleLegend (a : Angles) : Text :=
  "# t (ps)".toList ++ (if a.measured.isEmpty then [] else " Mean (deg.) Left (deg.) Right (deg.)".toList) ++ (if a.fit.isEmpty then [] else " Fit (deg.)".toList)

/-- The columns (strata/interface/angle.py:172-185). -/
noncomputable def angleColumns (times : List ℚ) (a : Angles) : List (List (Option ℝ)) :=
  [times.map fun t : ℚ => some (t : ℝ)] ++ (if a.measured.isEmpty then [] else [a.measured, a.left, a.right]) ++ (if a.fit.isEmpty then [] else [a.fit.map some])

/-- The rows of the array with the columns (`np.array(data_axes).T`, strata/interface/angle.py:185), which have the same length. -/
noncomputable def angleRows (times : List ℚ) (a : Angles) : List (List (Option ℝ)) :=
  (List.range times.length).map fun i : ℕ => (angleColumns times a).map fun col => (col[i]?).getD none

/-- Words with single spaces between them: a row of `np.savetxt` (strata/interface/angle.py:188-189). -/
def spaced : List Text → Text
  | [] => []
  | [w] => w
  | w :: ws => w ++ ' ' :: spaced ws

/-- The file written by `write_angle_data` (strata/interface/angle.py:128-189). -/
noncomputable def angleFile (head : List Text) (times : List ℚ) (a : Angles) : Text :=
  joinLines (head ++ [angleLegend a] ++ (angleRows times a).map fun r => spaced (r.map (fixedOption 3)))

end Strata.InterfaceText
