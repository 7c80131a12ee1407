import Verif.Props.ReadFiles
import Verif.Conformance.Flow
import Verif.Model.SimpleAverage
/-!
# The project's own tests of `strata/dataformats` and `strata/convert.py`, run on the model

Sources: /repo/strata/dataformats/simple/tests/{test_average_simple,test_combine_simple,test_read_data,test_save_simpledata}.py,
/repo/strata/dataformats/tests/{test_read,test_write}.py, /repo/strata/tests/test_convert.py.  Random columns are replaced by fixed ones;
the file data_binsimple.dat is not in the repository.
-/
namespace Strata.Conformance.Simple
open Strata Strata.Flow Strata.Bytes Strata.PyText Strata.Simple Strata.SimpleAverage Strata.Conformance.Flow Strata.Files Strata.Driver

/-! ## test_average_simple.py -/

/-- Record `i` of `n` bins (the random fields are replaced). -/
def recOf (n i : ℕ) : Record := [("X", arange n), ("Y", arange n), ("U", (arange n).map fun t : ℚ => t - i), ("V", (arange n).map fun t : ℚ => t * i),
  ("M", (arange n).map fun t : ℚ => 1 + t + i), ("T", (arange n).map fun t : ℚ => 3 + t * i), ("N", (arange n).map fun t : ℚ => 2 + i + t * t)]

/-- `np.sum([f(d)…], 0)` over the records. -/
def total (k n : ℕ) (f : ℕ → ℚ → ℚ) : List ℚ := (arange n).map fun t : ℚ => ((List.range k).map fun i : ℕ => f i t).sum

/-- The control values of `test_average_data` (test_average_simple.py:26-33). -/
def control (k n : ℕ) : Record :=
  [("X", arange n), ("Y", arange n), ("M", (total k n fun i t => 1 + t + i).map fun s : ℚ => s / k), ("N", (total k n fun i t => 2 + i + t * t).map fun s : ℚ => s / k),
    ("U", List.zipWith (fun a b : ℚ => a / b) (total k n fun i t => (t - i) * (1 + t + i)) (total k n fun i t => 1 + t + i)),
    ("V", List.zipWith (fun a b : ℚ => a / b) (total k n fun i t => t * i * (1 + t + i)) (total k n fun i t => 1 + t + i)),
    ("T", List.zipWith (fun a b : ℚ => a / b) (total k n fun i t => (3 + t * i) * (2 + i + t * t)) (total k n fun i t => 2 + i + t * t))]

/-- `test_average_data` (test_average_simple.py:10-43), 4 bins of one record and 8 bins of ten. -/
example : averageData ((List.range 1).map (recOf 4)) = .ok (control 1 4) ∧ averageData ((List.range 10).map (recOf 8)) = .ok (control 10 8) := by
  refine ⟨?_, ?_⟩ <;> decide +kernel

/-- `test_avg_different_sizes` (test_average_simple.py:46-61). -/
example : averageData ((List.range 7).map (recOf 8) ++ [recOf 4 7]) = .error .valueError := by decide +kernel

/-- `test_avg_empty` (test_average_simple.py:64-75). -/
example : averageData [] = .ok [] ∧ averageData [recOf 0 0] = .ok [("X", []), ("Y", []), ("M", []), ("N", []), ("U", []), ("V", []), ("T", [])] := by
  refine ⟨?_, ?_⟩ <;> decide +kernel

/-- `test_fields_nan` (test_average_simple.py:78-117): without atoms the temperature is 0, the other fields are as before. -/
example : (averageData ((List.range 4).map fun i : ℕ => setCol (recOf 8 i) "N" (List.replicate 8 0))) =
    (averageData ((List.range 4).map (recOf 8))).map fun r => setCol (setCol r "N" (List.replicate 8 0)) "T" (List.replicate 8 0) := by decide +kernel

/-- data_plainsimple.dat (strata/dataformats/simple/tests/data_plainsimple.dat). -/
def plainFile : Bytes := ascii (["X Y N T M U V",
  "133.125000 0.375000 6.279000 277.640289 37.616283 0.009004 -0.010304",
  "133.125000 0.625000 7.865000 302.689087 43.352600 -0.034248 -0.045338",
  "133.125000 0.875000 0.000000 311.737152 83.701500 -0.036306 -0.042350",
  "133.125000 1.125000 0.000000 317.435547 93.350914 -0.044962 -0.013593",
  "133.375000 0.375000 0.000000 295.001953 62.472282 -0.006720 -0.005375",
  "133.375000 0.625000 17.003000 287.062164 95.738937 -0.032690 -0.012982",
  "133.375000 0.875000 23.357000 314.490906 145.094131 -0.063213 -0.000840",
  "133.375000 1.125000 25.954000 305.356354 154.697891 -0.045457 -0.019741",
  "133.625000 0.375000 14.035000 305.616669 79.164986 0.001782 0.000458",
  "133.625000 0.625000 27.680000 305.377991 166.976654 -0.033234 -0.007347",
  "133.625000 0.875000 29.773001 292.416199 184.227722 -0.049492 -0.010025",
  "133.625000 1.125000 25.985001 297.135071 152.090652 -0.025466 -0.028137"].flatMap fun s : String => s.toList ++ ['\n'])

/-- data_avgsimple.dat (strata/dataformats/simple/tests/data_avgsimple.dat): the bins with atoms. -/
def avgFile : Bytes := ascii (["X Y N T M U V",
  "133.125000 0.375000 6.279000 277.640289 37.616283 0.009004 -0.010304",
  "133.125000 0.625000 7.865000 302.689087 43.352600 -0.034248 -0.045338",
  "133.375000 0.625000 17.003000 287.062164 95.738937 -0.032690 -0.012982",
  "133.375000 0.875000 23.357000 314.490906 145.094131 -0.063213 -0.000840",
  "133.375000 1.125000 25.954000 305.356354 154.697891 -0.045457 -0.019741",
  "133.625000 0.375000 14.035000 305.616669 79.164986 0.001782 0.000458",
  "133.625000 0.625000 27.680000 305.377991 166.976654 -0.033234 -0.007347",
  "133.625000 0.875000 29.773001 292.416199 184.227722 -0.049492 -0.010025",
  "133.625000 1.125000 25.985001 297.135071 152.090652 -0.025466 -0.028137"].flatMap fun s : String => s.toList ++ ['\n'])

/-- The record returned by the reader. -/
def readRec (b : Bytes) : Record :=
  match Simple.readData ieee32 b with
  | .ok (o, _) => ("X", o.x.map (·.getD 0)) :: ("Y", o.y.map (·.getD 0)) :: o.rest
  | .error _ => []

/-- Numbers given in millionths. -/
def micro (l : List ℤ) : List ℚ := l.map fun k : ℤ => (k : ℚ) / 1000000

/-- The values of data_plainsimple.dat. -/
def plainRec : Record := [("X", micro [133125000, 133125000, 133125000, 133125000, 133375000, 133375000, 133375000, 133375000, 133625000, 133625000, 133625000, 133625000]),
  ("Y", micro [375000, 625000, 875000, 1125000, 375000, 625000, 875000, 1125000, 375000, 625000, 875000, 1125000]),
  ("N", micro [6279000, 7865000, 0, 0, 0, 17003000, 23357000, 25954000, 14035000, 27680000, 29773001, 25985001]),
  ("T", micro [277640289, 302689087, 311737152, 317435547, 295001953, 287062164, 314490906, 305356354, 305616669, 305377991, 292416199, 297135071]),
  ("M", micro [37616283, 43352600, 83701500, 93350914, 62472282, 95738937, 145094131, 154697891, 79164986, 166976654, 184227722, 152090652]),
  ("U", micro [9004, -34248, -36306, -44962, -6720, -32690, -63213, -45457, 1782, -33234, -49492, -25466]),
  ("V", micro [-10304, -45338, -42350, -13593, -5375, -12982, -840, -19741, 458, -7347, -10025, -28137])]

/-- The plain file is read as it stands (strata/dataformats/simple/tests/data_plainsimple.dat). -/
theorem readRec_plain : readRec plainFile = plainRec := by decide +kernel

/-- The values read from data_avgsimple.dat, which has no complete grid: 9 values a field, but the coordinates of a grid of 2 × 4 bins. -/
def avgRec : Record := [("X", micro [133125000, 133125000, 133125000, 133125000, 133625000, 133625000, 133625000, 133625000]),
  ("Y", micro [375000, 625000, 875000, 1125000, 375000, 625000, 875000, 1125000]),
  ("N", micro [6279000, 7865000, 17003000, 23357000, 25954000, 14035000, 27680000, 29773001, 25985001]),
  ("T", micro [277640289, 302689087, 287062164, 314490906, 305356354, 305616669, 305377991, 292416199, 297135071]),
  ("M", micro [37616283, 43352600, 95738937, 145094131, 154697891, 79164986, 166976654, 184227722, 152090652]),
  ("U", micro [9004, -34248, -32690, -63213, -45457, 1782, -33234, -49492, -25466]),
  ("V", micro [-10304, -45338, -12982, -840, -19741, 458, -7347, -10025, -28137])]

/-- The file as it is read (strata/dataformats/simple/tests/data_avgsimple.dat). -/
theorem readRec_avg : readRec avgFile = avgRec := by decide +kernel

/-- The record with some columns tripled. -/
def tripled (ls : List Label) (r : Record) : Record := r.map fun c => (c.1, if c.1 ∈ ls then c.2.map fun v : ℚ => v * 3 else c.2)

/-- The sum of a column. -/
def sumOf (r : Except Err Record) (l : Label) : Option ℚ := (r.toOption.bind fun r => col? r l).map (·.sum)

/-- `test_read_and_average` (test_average_simple.py:120-141). -/
example : (∀ l ∈ ["U", "V", "T"], sumOf (averageData [readRec avgFile, tripled ["U", "V", "T"] (readRec avgFile)]) l =
      (sumOf (.ok (readRec avgFile)) l).map fun s : ℚ => 2 * s) ∧
    (∀ l ∈ ["M", "N"], sumOf (averageData [readRec avgFile, tripled ["U", "V", "T", "M", "N"] (readRec avgFile)]) l =
      (sumOf (.ok (readRec avgFile)) l).map fun s : ℚ => 2 * s) ∧ sumOf (.ok (readRec avgFile)) "N" = some (177931002 / 1000000) := by
  rw [readRec_avg]
  refine ⟨?_, ?_, ?_⟩ <;> decide +kernel

/-! ## test_combine_simple.py -/

/-- `test_combine_bins` (test_combine_simple.py:8-53); the random fields are replaced. -/
example : combineBins [("X", [0, 1, 0, 1]), ("Y", [0, 0, 2, 2]), ("M", [1, 2, 3, 4]), ("T", [5, 1, 2, 3]), ("U", [1, 0, 2, 1]), ("V", [1, 1, 1, 6]), ("N", [0, 0, 0, 0])]
      ⟨(2, 2), (1, 2), (0, 0), 4⟩ 2 2 =
    .ok ([("X", [1 / 2]), ("Y", [1]), ("N", [0]), ("M", [10]), ("T", [0]), ("U", [(1 * 1 + 2 * 0 + 3 * 2 + 4 * 1) / 10]), ("V", [(1 + 2 + 3 + 24) / 10])],
      ⟨(1, 1), (2, 4), (1 / 2, 1), 1⟩) := by decide +kernel

/-- Cells 0:3 × j:j+2 of a column of the plain file. -/
def half (l : Label) (j : ℕ) : List ℚ := [j, j + 1, 4 + j, 5 + j, 8 + j, 9 + j].map fun k : ℕ => ((col? plainRec l).getD []).getD k 0

/-- `np.average(…, weights=…)`. -/
def weightedMean (a w : List ℚ) : ℚ := (List.zipWith (· * ·) a w).sum / w.sum

/-- `test_read_and_combine_bins` (test_combine_simple.py:56-79). -/
example : (combineBins (readRec plainFile) ⟨(3, 4), (1 / 4, 1 / 4), (133125 / 1000, 375 / 1000), 12⟩ 3 2).map (·.1) =
    .ok [("X", [133375 / 1000, 133375 / 1000]), ("Y", [1 / 2, 1]), ("N", [(half "N" 0).sum, (half "N" 2).sum]), ("M", [(half "M" 0).sum, (half "M" 2).sum]),
      ("T", [weightedMean (half "T" 0) (half "N" 0), weightedMean (half "T" 2) (half "N" 2)]),
      ("U", [weightedMean (half "U" 0) (half "M" 0), weightedMean (half "U" 2) (half "M" 2)]),
      ("V", [weightedMean (half "V" 0) (half "M" 0), weightedMean (half "V" 2) (half "M" 2)])] := by
  rw [readRec_plain]
  decide +kernel

/-! ## test_read_data.py, test_read.py -/

/-- `test_plain_goodfile` (test_read_data.py:40-70) and `test_read_file` (test_read.py:20-27): all fields, of 12 bins; 9 bins with atoms. -/
example : (readRec plainFile).map (fun c => (c.1, c.2.length)) = ["X", "Y", "N", "T", "M", "U", "V"].map (fun l : Label => (l, 12)) ∧
    (((col? (readRec plainFile) "N").getD []).filter fun v : ℚ => decide (v ≠ 0)).length = 9 ∧
    (col? (readRec plainFile) "X").map (fun c => (c.head?, c.getLast?)) = some (some (133125 / 1000), some (133625 / 1000)) ∧
    (col? (readRec plainFile) "Y").map (fun c => (c.head?, c.getLast?)) = some (some (375 / 1000), some (1125 / 1000)) ∧
    ((col? (readRec plainFile) "N").getD []).sum = 177931002 / 1000000 := by
  rw [readRec_plain]
  refine ⟨?_, ?_, ?_, ?_, ?_⟩ <;> decide +kernel

/-- The mean mass and temperature of the bins with atoms (test_read_data.py:69-70), to the precision of `np.allclose`. -/
example : let full := (List.range 12).filter fun k : ℕ => decide (((col? (readRec plainFile) "N").getD []).getD k 0 ≠ 0)
    |(full.map fun k : ℕ => ((col? (readRec plainFile) "M").getD []).getD k 0).sum / 9 - 11766221 / 100000| ≤ 1 / 100000 ∧
    |(full.map fun k : ℕ => ((col? (readRec plainFile) "T").getD []).getD k 0).sum / 9 - 29864274 / 100000| ≤ 1 / 100000 := by
  rw [readRec_plain]
  decide +kernel

/-- `test_calc_badinfo` (test_read_data.py:91-96). -/
example : calcInformation (arange 4) (arange 8) = .error .valueError := by decide +kernel

/-- `test_guess_dataformat`, `test_read_file` (test_read.py:16-27): the plain file is in the simple format, with this information. -/
example : Gmx.isGmx plainFile = false ∧ (readDataFile ieee32 plainFile).map (fun m => m.2) =
    .ok (⟨(3, 4), (some (1 / 4), some (1 / 4)), some (133125 / 1000, 375 / 1000), 12⟩, 1) := by
  refine ⟨?_, ?_⟩ <;> decide +kernel

/-- `test_read_files_generator` (test_read.py:29-45). -/
example : readFromFiles ieee32 [] [] = ([], .ok ()) ∧
    (readFromFiles ieee32 [((".".toList, "p".toList), plainFile)] [(".".toList, "p".toList)]).1.map (fun m => m.2.1.numBins) = [12] := by
  refine ⟨rfl, ?_⟩
  decide +kernel

/-! ## test_save_simpledata.py, test_write.py -/

/-- The data written (test_write.py:12-20, test_save_simpledata.py:10-14); the random fields are replaced. -/
def saveData : Record := [("X", arange 4), ("Y", arange 4), ("U", [1 / 3, 1 / 7, 9 / 10, 3 / 16]), ("V", [1 / 10, 2 / 10, 3 / 10, 4 / 10]), ("N", [1 / 2, 1 / 4, 1 / 8, 2 / 3]),
  ("T", [1 / 9, 2 / 9, 4 / 9, 8 / 9]), ("M", [7 / 10, 6 / 10, 5 / 10, 4 / 10])]

/-- `np.allclose(…, atol=1e-6)` of all the columns of two records. -/
def close (r s : Record) : Bool := s.all fun c => match col? r c.1 with
  | some d => d.length == c.2.length && (d.zip c.2).all fun p : ℚ × ℚ => decide (|p.1 - p.2| ≤ 1 / 1000000 + |p.2| / 100000)
  | none => false

/-- The table of `readPlain` as a record. -/
def table (p : List Label × List (List ℚ)) : Record := p.1.zipIdx.map fun q => (q.1, p.2.map fun row => row.getD q.2 0)

/-- `test_write`, `test_write_plaintext` (test_save_simpledata.py:16-32) and `test_write_formats_simple` (test_write.py:33-46). -/
example : (Simple.write ieee32 saveData none (some "simple")).map (fun b => close (readBinary ieee32 b) saveData) = .ok true ∧
    ((Simple.write ieee32 saveData none (some "simple_plain")).bind readPlain).map (fun p => close (table p) saveData) = .ok true := by
  refine ⟨?_, ?_⟩ <;> decide +kernel

/-- `test_default_write` (test_write.py:27-31): the default format is gmx. -/
example : (Simple.write ieee32 saveData (some ⟨(2, 2), (1, 1), (0, 0)⟩) none).map Gmx.isGmx = .ok true := by decide +kernel

/-- `test_bad_ftype` (test_write.py:48-53). -/
example : Simple.write ieee32 saveData none (some "not-an-ftype") = .error .keyError := by decide +kernel

/-! ## test_convert.py -/

/-- Map `i` (test_convert.py:14-22, :36-38); the random fields are replaced. -/
def saved (i : ℕ) : Record := [("X", [0, 0, 1, 1]), ("Y", [0, 1, 0, 1]), ("U", (arange 4).map fun t : ℚ => (t + i) / 10),
  ("V", (arange 4).map fun t : ℚ => t * i / 7), ("N", (arange 4).map fun t : ℚ => 1 / (1 + t + i)), ("T", (arange 4).map fun t : ℚ => 1 - t / 8 - i / 10),
  ("M", (arange 4).map fun t : ℚ => 1 / 2 + t * i / 100)]

/-- The numbered files of a base. -/
def names (base ext : String) (b n : ℕ) : List Text := (List.range n).map fun i : ℕ => fileName base.toList ext.toList ((b + i : ℕ) : ℤ)

/-- The maps written to disk. -/
def disk (ftype ext : String) (b n : ℕ) : FS Bytes := (List.range n).map fun i : ℕ =>
  ((".".toList, fileName "tmp_".toList ext.toList ((b + i : ℕ) : ℤ)), (Simple.write ieee32 (saved (b + i)) none (some ftype)).toOption.getD [])

/-- The maps converted. -/
def converted (source target ext : String) (b n : ℕ) (end_ : Option ℤ) : FS Bytes × Except Err Unit :=
  convertFiles ieee32 target (disk source ext b n) (names "tmp_" ext b n) "tmp_".toList "out_".toList ext.toList none b end_

/-- The output files satisfy a test each, and there is one for each input. -/
def outputs (r : FS Bytes × Except Err Unit) (ext : String) (b n : ℕ) (test : ℕ → Bytes → Bool) : Bool :=
  decide (r.2 = .ok ()) && r.1.length == 2 * n && (List.range n).all fun i : ℕ =>
    match r.1.get? (".".toList, fileName "out_".toList ext.toList ((b + i : ℕ) : ℤ)) with
    | some c => test (b + i) c
    | none => false

/-- `test_convert_from_simple_to_gmx` (test_convert.py:30-54): the coordinates become those of the bin centres. -/
example : outputs (converted "simple" "gmx" ".dat" 1 8 none) ".dat" 1 8 (fun i c => match Gmx.readData ieee32 c with
    | .ok (r, _) => close r (("X", [1 / 2, 1 / 2, 3 / 2, 3 / 2]) :: ("Y", [1 / 2, 3 / 2, 1 / 2, 3 / 2]) :: (saved i).drop 2)
    | .error _ => false) = true := by decide +kernel

/-- `test_convert_from_simple_plain_to_simple` (test_convert.py:56-78). -/
example : outputs (converted "simple_plain" "simple" ".dat" 1 8 none) ".dat" 1 8 (fun i c => close (readBinary ieee32 c) (saved i)) = true := by decide +kernel

/-- `test_convert_fopts_plainsimple` (test_convert.py:80-104): maps 4 to 6, other extension. -/
example : outputs (converted "simple" "simple_plain" ".tmp" 4 3 (some 6)) ".tmp" 4 3 (fun i c => match readPlain c with
    | .ok p => close (table p) (saved i)
    | .error _ => false) = true := by decide +kernel

end Strata.Conformance.Simple
