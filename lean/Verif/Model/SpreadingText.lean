import Verif.Model.Spreading
import Verif.Model.Cli
/-!
# Model of spreading files as text (`strata/spreading/collect.py`, `strata/spreading/view.py`)

Texts are ASCII with `'\n'` as line end (files are opened in text mode, which translates other line ends).  Numbers are exact: reading does not
round to the nearest double.
-/
namespace Strata.SpreadingText
open Strata Strata.Files Strata.PyText Strata.Spreading Strata.Cli

/-! ## Writing -/

/-- `'%.kf' % x`: `k` decimals, ties to even (strata/spreading/collect.py:381, :396). -/
def fixed (k : ℕ) (x : ℚ) : Text :=
  let v := (Average.pyRound (|x| * 10 ^ k)).toNat
  (if x < 0 then ['-'] else []) ++ decimal (v / 10 ^ k) ++ '.' :: padded k (v % 10 ^ k)

/-- The options as they are written by `%r` and `%s` into the file header, in this order (strata/spreading/collect.py:349-368). -/
structure Header where
  date : Text
  version : Text
  base : Text
  begin_ : Text
  end_ : Text
  floor : Text
  dt : Text
  cutoff : Text
  radius : Text
  bins : Text

/-- The lines of the file header (strata/spreading/collect.py:349-368). -/
def headerLines (h : Header) : List Text :=
  ["# Spreading radius of a droplet impacting a substrate".toList, "# ".toList, "# Creation date: ".toList ++ h.date, "# Using module version: ".toList ++ h.version,
    "# ".toList, "# Input:".toList, "#   File base path: ".toList ++ h.base, "#   Begin, end: ".toList ++ h.begin_ ++ ", ".toList ++ h.end_, "#   Floor: ".toList ++ h.floor,
    "#   Delta-t: ".toList ++ h.dt, "#   Mass cut-off: ".toList ++ h.cutoff, "#   Radius cut-off: ".toList ++ h.radius, "#   Required # of bins: ".toList ++ h.bins, "# ".toList]

/-- `os.path.split(path)[1]` (strata/spreading/collect.py:376): what follows the last '/'. -/
def fileName (path : Text) : Text := (path.reverse.takeWhile (· ≠ '/')).reverse

/-- The lines appended for a row, and once at impact (`write_spreading`, `output_impact_time`: strata/spreading/collect.py:373-396). -/
def lineTexts : Line → List Text
  | .impact t path =>
    ["# Droplet impact:".toList, "#   Time: ".toList ++ fixed 3 t ++ " ps".toList, "#   File: '".toList ++ fileName path ++ "'".toList, "# ".toList,
      "# Time (ps) Radius (nm) Left (nm) Right (nm)".toList]
  | .row r => [fixed 3 r.time ++ ' ' :: (fixed 3 r.radius ++ ' ' :: (fixed 3 r.left ++ ' ' :: fixed 3 r.right))]

/-- Lines with their line ends. -/
def joinLines (ls : List Text) : Text := ls.flatMap fun l => l ++ ['\n']

/-- The file left by `collect` (strata/spreading/collect.py:19-153, 332-396). -/
def savedFile (h : Header) (lines : List Line) : Text := joinLines (headerLines h ++ lines.flatMap lineTexts)

/-! ## Reading -/

/-- A series as read: its name and the times and radii, which may be any floating point values. -/
structure Named where
  name : Text
  points : List (Value × Value)
  deriving DecidableEq, Repr

/-- The lines of a file, `cur` being the reversed beginning of the current line. -/
def fileLinesAux (cur : Text) : Text → List Text
  | [] => if cur = [] then [] else [cur.reverse]
  | c :: s => if c = '\n' then cur.reverse :: fileLinesAux [] s else fileLinesAux (c :: cur) s

/-- The lines of a file (`np.loadtxt`, strata/spreading/view.py:188). -/
def fileLines (s : Text) : List Text := fileLinesAux [] s

/-- One line of numbers; another word raises `ValueError` (strata/spreading/view.py:188 and 209-215). -/
def numbers (ws : List Text) : Except Err (List Value) := ws.mapM fun w => (float? w).elim (.error .valueError) .ok

/-- Rows of equal length, at least one: a table (strata/spreading/view.py:188, :221-222); the length.  Rows of different lengths are
refused with `ValueError` (by older versions of NumPy, for the second use, with `IndexError` in the following line). -/
def tableWidth : List (List Value) → Except Err ℕ
  | [] => .error .indexError
  | r :: rs => if rs.all fun q => q.length = r.length then .ok r.length else .error .valueError

/-- `get_series` (strata/spreading/view.py:244-249): the name ends with the number; points whose radius is NaN are dropped. -/
def getSeries (rows : List (List Value)) (col : ℕ) (filename : Text) (num : ℕ) : Named :=
  ⟨filename ++ '.' :: decimal num, (rows.map fun r => (r.getD 0 .nan, r.getD col .nan)).filter fun p => p.2 ≠ .nan⟩

/-- `read_plain_file` (strata/spreading/view.py:185-192).  `np.loadtxt` skips lines without words outside comments and reduces tables with a single
row or column to a vector, from which no series can be built: `TypeError`. -/
def readPlain (filename content : Text) : Except Err (List Named) := do
  let rows ← (((fileLines content).map fun l => words (l.takeWhile (· ≠ '#'))).filter (· ≠ [])).mapM numbers
  let m ← tableWidth rows
  if rows.length = 1 ∨ m = 1 then .error .typeError
  else .ok ((List.range (m - 1)).map fun i : ℕ => getSeries rows (i + 1) filename (i + 1))

/-- `text.split(sep)` for a separator that is not empty; `skip` characters of a separator are left (strata/spreading/view.py:198). -/
def splitAux (sep : Text) (cur : Text) : ℕ → Text → List Text
  | _, [] => [cur.reverse]
  | k + 1, _ :: s => splitAux sep cur k s
  | 0, c :: s => if sep.isPrefixOf (c :: s) then cur.reverse :: splitAux sep [] (sep.length - 1) s else splitAux sep (c :: cur) 0 s

/-- `text.split(sep)` (strata/spreading/view.py:198). -/
def splitSep (sep s : Text) : List Text := splitAux sep [] 0 s

/-- The separator of data sets (strata/spreading/view.py:198). -/
def target : Text := "@target ".toList

/-- The table of one data set (strata/spreading/view.py:219-222); a table without columns raises `IndexError`. -/
def graphRows (part : Text) : Except Err (List (List Value)) := do
  let rows ← (((splitlines part).drop 1).filter fun l => !(l.head? = some '@') && decide (l ≠ ['&'])).mapM fun l => numbers (words l)
  let m ← tableWidth rows
  if m = 0 then .error .indexError else .ok rows

/-- The series of the data sets, numbered through (strata/spreading/view.py:217-232). -/
def graphSeries (filename : Text) : ℕ → List (List (List Value)) → List Named
  | _, [] => []
  | n, rows :: gs =>
    let m := (rows.headD []).length
    ((List.range (m - 1)).map fun i : ℕ => getSeries rows (i + 1) filename (n + i + 1)) ++ graphSeries filename (n + (m - 1)) gs

/-- `read_xvg_file` (strata/spreading/view.py:194-241). -/
def readXvg (filename content : Text) : Except Err (List Named) := do
  let gs ← ((splitSep target content).drop 1).mapM graphRows
  .ok (graphSeries filename 0 gs)

/-- `read_file` (strata/spreading/view.py:251-256). -/
def readFile (filename content : Text) : Except Err (List Named) :=
  match readPlain filename content with
  | .ok s => .ok s
  | .error _ => readXvg filename content

/-- `read_spreading_data` (strata/spreading/view.py:180-265): all series, and the files a warning is printed for.  `fs` tells the content of a file,
`none` if it cannot be read. -/
def readSpreading (fs : Text → Option Text) : List Text → List Named × List Text
  | [] => ([], [])
  | f :: rest =>
    let r := readSpreading fs rest
    match (fs f).elim (.error .osError) (readFile f) with
    | .ok s => (s ++ r.1, r.2)
    | .error _ => (r.1, f :: r.2)

/-! ## Writing series -/

/-- The first lines of a file with series (strata/spreading/view.py:292-314). -/
def seriesHeader (date version dir : Text) (names : List Text) : List Text :=
  ["# Spreading radius of a droplet impacting a substrate".toList, "# ".toList, "# Created by module: strata.spreading.view".toList, "# Creation date: ".toList ++ date,
    "# Using module version: ".toList ++ version, "# ".toList, "# Working directory: '".toList ++ dir ++ "'".toList, "# Input files:".toList] ++
  names.map (fun n => "#   '".toList ++ n ++ "'".toList) ++ ["# ".toList, "# Time (ps) Radius (nm)".toList]

/-- `s.to_string()` of pandas is a parameter: the text of a series. -/
abbrev ToString := Series → Text

/-- `write_data` (strata/spreading/view.py:319-335), after the header; the index of the next series is `i`. -/
def dataSets (toStr : ToString) : ℕ → List Series → Text
  | _, [] => []
  | i, s :: rest =>
    target ++ "G0.S".toList ++ decimal i ++ '\n' :: ("@type xy".toList ++ '\n' :: (toStr s ++ '\n' ::
      ((if rest = [] then [] else ['&', '\n']) ++ dataSets toStr (i + 1) rest)))

/-- The header of a file with fitted series (strata/spreading/fit.py:198-227). -/
def fitHeader (date version lims outLims dir : Text) (names : List Text) : List Text :=
  ["# Fitted spreading radii of a droplet impacting a substrate".toList, "# ".toList, "# Created by module: strata.spreading.fit".toList, "# Creation date: ".toList ++ date,
    "# Using module version: ".toList ++ version, "# ".toList, "# Input:".toList, "#   Fit limits: ".toList ++ lims, "#   Draw limits: ".toList ++ outLims, "# ".toList,
    "# Working directory: '".toList ++ dir ++ "'".toList, "# Input files and fitting parameter values (r = a*t^k):".toList] ++
  names.map (fun n => "#   '".toList ++ n ++ "'".toList) ++ ["# ".toList, "# Time (ps) Radius (nm)".toList]

/-- The header followed by the data sets: the two `write_data` are identical (strata/spreading/view.py:319-338, strata/spreading/fit.py:231-250). -/
def writeSets (toStr : ToString) (header : List Text) (data : List (Text × Series)) : Text :=
  joinLines (header ++ "@with g0".toList :: data.zipIdx.map fun p => "@    s".toList ++ decimal p.2 ++ " comment \"".toList ++ p.1.1 ++ "\"".toList) ++
    dataSets toStr 0 (data.map Prod.snd)

/-- The file written by `write_spreading_data` (strata/spreading/view.py:281-338). -/
def writeSeries (toStr : ToString) (date version dir : Text) (data : List (Text × Series)) : Text :=
  writeSets toStr (seriesHeader date version dir (data.map Prod.fst)) data

/-- The file written by `write_fitting_data` (strata/spreading/fit.py:193-250). -/
def writeFits (toStr : ToString) (date version lims outLims dir : Text) (data : List (Text × Series)) : Text :=
  writeSets toStr (fitHeader date version lims outLims dir (data.map Prod.fst)) data

end Strata.SpreadingText
