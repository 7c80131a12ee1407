import Verif.Spec.CommandRuns
import Verif.Props.Commands
import Verif.Props.AverageFiles
import Verif.Props.SpreadingFiles
import Verif.Proofs.SimpleText
/-!
# Commands, from the command line to the files: C141
-/
namespace Strata.CommandRuns
open Strata Strata.Files Strata.Commands Strata.Driver Strata.SpreadingFiles Strata.Bytes Strata.Spec

/-! ## Lemmas -/

theorem get_eq {k : Kw} {n : String} {v d : Commands.Arg} (h : k.lookup n = some v) : get k n d = v := by unfold get; rw [h]; rfl

theorem get_none {k : Kw} {n : String} {d : Commands.Arg} (h : k.lookup n = none) : get k n d = d := by unfold get; rw [h]; rfl

theorem whole_int (z : ℤ) : whole (.num (z : ℚ)) = .ok z := by
  unfold whole
  simp

theorem count_nat (n : ℕ) : count (.num (n : ℚ)) = .ok n := by
  unfold count
  have : ((n : ℤ) : ℚ) = (n : ℚ) := by norm_cast
  rw [← this, whole_int, Commands.ok_bind, if_pos (by omega)]
  simp

theorem lastOf_eq (e : Option ℤ) : lastOf (boundOf (optInt e)) = .ok e := by
  cases e with
  | none => rfl
  | some z =>
    have : boundOf (optInt (some z)) = .num (z : ℚ) := by simp [boundOf, optInt]
    rw [this]
    simp only [lastOf, whole_int]
    rfl

theorem optNumber_eq (q : Option ℚ) : optNumber (optNum q) = .ok q := by cases q <;> rfl

theorem optCount_eq (n : Option ℕ) : optCount (optInt (n.map fun n => (n : ℤ))) = .ok n := by
  cases n with
  | none => rfl
  | some n =>
    have : optInt ((some n).map fun n => (n : ℤ)) = .num (n : ℚ) := by simp [optInt]
    rw [this]
    simp only [optCount, count_nat]
    rfl

theorem combineOf_eq (c : Option (ℕ × ℕ)) : combineOf (.pair (c.map fun p => (p.1 : ℚ)) (c.map fun p => (p.2 : ℚ))) = .ok c := by
  cases c with
  | none => rfl
  | some p =>
    simp only [Option.map_some, combineOf, count_nat]
    rfl

/-! ## C141 -/

/-- **C141, `strata average`.** Whatever options are on the command line, the command does to the files what averaging with the documented meaning of these options does: groups of `group` files
from the first to the last number, the limits, the recentring with its contact line criteria, the combination and the supersampling asked for, and the defaults for everything else. -/
theorem C141_average (F : F32) (fs : FS Bytes) (dir : Dir) (base output : String) (group : ℕ) (given : Kw) (c : AverageChoice) (h : c.Asked given) :
    averageCommand F fs dir (.text base) (.text output) (.num group) given =
      average (readDataFile F) (gmxWrite F) (averageEdges c.radius c.floor { cutoff := some c.cutoff, bins := c.bins })
        { xlim := c.xlim, ylim := c.ylim, recenter := c.recenter, combine := c.combine, supersample := c.supersample }
        fs dir base.toList output.toList c.ext.toList none group c.rolling c.first c.last := by
  obtain ⟨call, h1, -, h3, hg⟩ := C110_average (.text base) (.text output) (.num group) given
  have key : averageArgs call = .ok ⟨base.toList, output.toList, group, c.rolling, c.ext.toList, c.first, c.last,
      ⟨c.xlim, c.ylim, c.recenter, c.combine, c.supersample, false⟩, ⟨c.floor, c.cutoff, c.bins, c.radius⟩⟩ := by
    have r : recenterOf (get call.kwargs "recenter" (.bool false)) = c.recenter := by
      have e := hg "recenter"
      rcases h.recenter with ⟨a, b⟩ | ⟨a, b⟩ | ⟨a, b⟩ | ⟨a, b⟩ <;> rw [b] at e <;> rw [a, get_eq (e.trans rfl)] <;> rfl
    unfold averageArgs
    rw [h3]
    simp only
    rw [r, get_eq ((hg "rolling").trans rfl), get_eq ((hg "begin").trans rfl), get_eq ((hg "end").trans rfl), get_eq ((hg "ext").trans rfl),
      get_none ((hg "quiet").trans rfl), get_eq ((hg "cutoff_radius").trans rfl), get_eq ((hg "xlim").trans rfl), get_eq ((hg "ylim").trans rfl),
      get_eq ((hg "combine").trans rfl), get_eq ((hg "supersample").trans rfl), get_eq ((hg "floor").trans rfl), get_eq ((hg "cutoff").trans rfl),
      get_eq ((hg "cutoff_bins").trans rfl)]
    rw [h.rolling, h.first, h.last, h.ext, h.radius, h.xlim, h.ylim, h.combine, h.supersample, h.floor, h.cutoff, h.bins]
    rw [count_nat, whole_int, whole_int, lastOf_eq, combineOf_eq, optCount_eq, optNumber_eq]
    rfl
  unfold averageCommand
  rw [h1, Commands.ok_bind, key]
  rfl

/-- **C141, one number of bins to combine.** `--combine 2 none` and `none 2`, which the type of the option lets through, are refused with an exception before a file is read or written. -/
theorem C141_combine_one_axis (F : F32) (fs : FS Bytes) (dir : Dir) (base output : String) (group : ℕ) (given : Kw) (n : ℚ)
    (h : valueOf given "combine" (.pair none none) = .pair (some n) none ∨ valueOf given "combine" (.pair none none) = .pair none (some n)) :
    ∃ e, averageCommand F fs dir (.text base) (.text output) (.num group) given = (fs, .error e) := by
  obtain ⟨call, h1, -, h3, hg⟩ := C110_average (.text base) (.text output) (.num group) given
  have hc : combineOf (get call.kwargs "combine" (.pair none none)) = .error .typeError := by
    rw [get_eq ((hg "combine").trans rfl)]
    rcases h with h | h <;> rw [h] <;> rfl
  have key : ∃ e, averageArgs call = .error e := by
    cases hA : averageArgs call with
    | error e => exact ⟨e, rfl⟩
    | ok a =>
      exfalso
      unfold averageArgs at hA
      rw [h3] at hA
      simp only at hA
      obtain ⟨_, -, hA⟩ := Simple.bind_eq_ok hA
      obtain ⟨_, -, hA⟩ := Simple.bind_eq_ok hA
      obtain ⟨_, -, hA⟩ := Simple.bind_eq_ok hA
      obtain ⟨_, -, hA⟩ := Simple.bind_eq_ok hA
      obtain ⟨_, -, hA⟩ := Simple.bind_eq_ok hA
      obtain ⟨_, -, hA⟩ := Simple.bind_eq_ok hA
      obtain ⟨_, -, hA⟩ := Simple.bind_eq_ok hA
      obtain ⟨_, -, hA⟩ := Simple.bind_eq_ok hA
      obtain ⟨_, -, hA⟩ := Simple.bind_eq_ok hA
      obtain ⟨_, -, hA⟩ := Simple.bind_eq_ok hA
      obtain ⟨_, -, hA⟩ := Simple.bind_eq_ok hA
      obtain ⟨_, hA, -⟩ := Simple.bind_eq_ok hA
      rw [hc] at hA
      cases hA
  obtain ⟨e, he⟩ := key
  refine ⟨e, ?_⟩
  unfold averageCommand
  rw [h1, Commands.ok_bind, he]

/-- **C141, `strata average`, bytes to bytes.** Without options that change the maps, on complete groups of files that hold maps on one grid, the command ends well, and each output file, when
read, holds the average of the maps of its group; all other files are as they were.  (The positions: see C115.) -/
theorem C141_average_files (F : F32) (fs : FS Bytes) (dir : Dir) (base output : String) (g : ℕ) (hg : 1 ≤ g) (given : Kw) (c : AverageChoice) (h : c.Asked given)
    (hplain : c.xlim = (none, none) ∧ c.ylim = (none, none) ∧ c.recenter = none ∧ c.combine = none ∧ c.supersample = none) (hslash : '/' ∉ c.ext.toList)
    (k : ℕ) (hk : ∀ i, i < k → Complete dir base.toList c.ext.toList c.first c.last g c.rolling i) (hk' : ¬ Complete dir base.toList c.ext.toList c.first c.last g c.rolling k)
    (maps : ℕ → List Map) (hread : ∀ i, i < k → ReadsAs (readDataFile F) fs (groupFiles base.toList c.ext.toList c.first g c.rolling i) (maps i))
    (nx ny : ℕ) (dx dy x1 y1 : ℚ) (or : ℚ × ℚ) (md : ℕ) (hgrid : ∀ i, i < k → ∀ m ∈ maps i, OnGrid m nx ny dx dy x1 y1 or ∧ m.2.2 = md)
    (hmass : ∀ i, i < k → EnoughSum (maps i) (nx * ny)) (hs : SixDecimals ⟨(nx, ny), (some dx, some dy), some or, nx * ny⟩) :
    ∃ start : ℤ, (c.rolling = true → start = c.first) ∧ (c.rolling = false → c.first ≤ start * g ∧ (start - 1) * g < c.first) ∧
      ((∀ i i', i < i' → i' < k → splitPath (fileName output.toList c.ext.toList (start + i)) ∉ (groupFiles base.toList c.ext.toList c.first g c.rolling i').map splitPath) →
        (averageCommand F fs dir (.text base) (.text output) (.num g) given).2 = .ok () ∧
        (∀ i : ℕ, i < k → ∃ c' m', (averageCommand F fs dir (.text base) (.text output) (.num g) given).1.get?
            (splitPath (fileName output.toList c.ext.toList (start + i))) = some c' ∧ readDataFile F c' = .ok m' ∧
          OnGrid m' nx ny dx dy (or.1 + dx / 2) (or.2 + dy / 2) or ∧ IsAverage F ((maps i).map Prod.fst) (nx * ny) m'.1) ∧
        ∀ p, fs.get? p ≠ none → (∀ i : ℕ, i < k → splitPath (fileName output.toList c.ext.toList (start + i)) ≠ p) →
          (averageCommand F fs dir (.text base) (.text output) (.num g) given).1.get? p = fs.get? p) := by
  rw [C141_average F fs dir base output g given c h]
  obtain ⟨p1, p2, p3, p4, p5⟩ := hplain
  rw [p1, p2, p3, p4, p5]
  obtain ⟨start, s1, s2, s3⟩ := C115_average_files_partial F (averageEdges c.radius c.floor { cutoff := some c.cutoff, bins := c.bins }) { } ⟨rfl, rfl, rfl, rfl, rfl⟩ rfl fs dir
    base.toList output.toList c.ext.toList none g hg c.rolling c.first c.last hslash k hk hk' maps hread nx ny dx dy x1 y1 or md hgrid hmass hs
  refine ⟨start, s1, s2, fun hno => ?_⟩
  obtain ⟨t1, t2, t3⟩ := s3 hno
  refine ⟨t1, fun i hi => ?_, t3⟩
  obtain ⟨c', m', u1, u2, u3, -, u4⟩ := t2 i hi
  exact ⟨c', m', u1, u2, u3, u4⟩

/-- **C141, `strata convert`.** -/
theorem C141_convert (F : F32) (fs : FS Bytes) (dir : Dir) (base output : String) (given : Kw) (c : ConvertChoice) (h : c.Asked given) :
    convertCommand F fs dir (.text base) (.text output) given = convertFiles F c.ftype fs dir base.toList output.toList c.ext.toList none c.first c.last := by
  obtain ⟨call, h1, -, -, hg⟩ := C110_convert (.text base) (.text output) given
  unfold convertCommand
  rw [h1, Commands.ok_bind, get_eq ((hg "begin").trans rfl), get_eq ((hg "end").trans rfl), get_eq ((hg "ext").trans rfl), get_eq ((hg "ftype").trans rfl),
    h.first, h.last, h.ext, h.ftype, whole_int, lastOf_eq]
  show convertFiles F (String.ofList c.ftype.toList) fs dir base.toList output.toList c.ext.toList none c.first c.last = _
  rw [String.ofList_toList]

/-- **C141, `strata spreading collect`.** The command collects the spreading at the given floor with the options asked for: it writes to the given file unless output is turned off, and prints the
rows, in single precision, if it is asked to be verbose and the collection does not fail. -/
theorem C141_spreading_collect (F : F32) (header : Call → SpreadingText.Header) (flag : Bool) (fs : FS Bytes) (dir : Dir) (base : String) (floor : ℚ) (given : Kw) (c : CollectChoice)
    (h : c.Asked given) :
    ∃ call run, call.function = "collect" ∧
      run = collectFiles (readFlow F) byteStore (header call) (if c.nooutput then none else some c.save.toList)
        { dt := c.dt, t0 := c.t0, radius := c.radius, floor := some floor, interface := { cutoff := c.cutoff, bins := c.bins } } flag fs dir base.toList c.ext.toList c.first c.last ∧
      (collectCommand F header flag fs dir (.text base) (.num floor) given).fs = run.fs ∧
      (collectCommand F header flag fs dir (.text base) (.num floor) given).flag = run.flag ∧
      (collectCommand F header flag fs dir (.text base) (.num floor) given).outcome = run.outcome ∧
      (collectCommand F header flag fs dir (.text base) (.num floor) given).lines =
        if c.verbose ∧ run.outcome = .ok () then verboseLines (run.rows.map fun r => (F.rnd r.time, F.rnd r.radius)) else [] := by
  obtain ⟨call, h1, h2, h3, hg⟩ := C110_spreading_collect (.text base) (.num floor) given
  have key : collectArgs call = .ok ⟨base.toList, c.ext.toList, c.first, c.last, if c.nooutput then none else some c.save.toList,
      { dt := c.dt, t0 := c.t0, radius := c.radius, floor := some floor, interface := { cutoff := c.cutoff, bins := c.bins } }⟩ := by
    have r : optText (get call.kwargs "save" .none) = .ok (if c.nooutput then none else some c.save.toList) := by
      have e := hg "save"
      rw [h.nooutput, h.save] at e
      rw [get_eq (e.trans rfl)]
      cases c.nooutput <;> rfl
    unfold collectArgs
    rw [h3]
    simp only
    rw [r, get_eq ((hg "begin").trans rfl), get_eq ((hg "end").trans rfl), get_eq ((hg "ext").trans rfl), get_eq ((hg "dt").trans rfl), get_eq ((hg "t0").trans rfl),
      get_eq ((hg "cutoff_radius").trans rfl), get_eq ((hg "floor").trans rfl), get_eq ((hg "cutoff").trans rfl), get_eq ((hg "cutoff_bins").trans rfl)]
    rw [h.first, h.last, h.ext, h.dt, h.t0, h.radius, h.cutoff, h.bins, whole_int, whole_int, lastOf_eq, optNumber_eq]
    rfl
  have hv : get (parsed collectOptions given) "verbose" (.bool false) = .bool c.verbose := by
    have : (parsed collectOptions given).lookup "verbose" = some (valueOf given "verbose" (.bool false)) := lookup_parsed _ _ _
    rw [get_eq this, h.verbose]
  refine ⟨call, _, h2, rfl, ?_⟩
  unfold collectCommand
  rw [h1]
  simp only
  rw [key]
  simp only
  rw [hv]
  generalize collectFiles (readFlow F) byteStore (header call) (if c.nooutput = true then none else some c.save.toList)
    { dt := c.dt, t0 := c.t0, radius := c.radius, floor := some floor, interface := { cutoff := c.cutoff, bins := c.bins } } flag fs dir base.toList c.ext.toList c.first c.last = run
  cases ho : run.outcome with
  | error e => simp
  | ok u => cases c.verbose <;> simp [truthy, ndarray]

/-! ## Examples -/

/-- `strata average a b 2 --combine 2 3 --recenter left -e 12`. -/
example : AverageChoice.Asked ⟨some (2, 3), none, some .left, false, none, 0, 1, 1, (none, none), (none, none), 1, some 12, ".dat"⟩
    [("combine", .pair (some 2) (some 3)), ("recenter", .text "left"), ("end", .num 12)] := by
  constructor <;> decide +kernel

/-- `strata convert a b --ftype simple`. -/
example : ConvertChoice.Asked ⟨"simple", 1, none, ".dat"⟩ [("ftype", .text "simple")] := by
  constructor <;> decide +kernel

/-- `strata spreading collect a 1.5 -cr 0.3 -v`. -/
example : CollectChoice.Asked ⟨"spread.xvg", false, 1, 0, none, 1, 3 / 10, 1, none, ".dat", true⟩ [("cutoff_radius", .num (3 / 10)), ("verbose", .bool true)] := by
  constructor <;> decide +kernel

/-- `strata average a b 2 --ext ''` meets the hypotheses of `C141_average_files` with the files of C115. -/
example : AverageChoice.Asked ⟨none, none, none, false, none, 0, 1, 1, (none, none), (none, none), 1, none, ""⟩ [("ext", .text "")] := by
  constructor <;> decide +kernel

end Strata.CommandRuns
