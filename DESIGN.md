# Formal model of pjohansson/strata in Lean 4

## 1. What is modelled

The repository is a numerical post-processing tool: maps of 2D bins are read
from numbered files, averaged, resampled, searched for droplet interfaces and
written back.  The model follows the Python code function by function:

| Lean module (`lean/Verif/Model/…`) | Python source |
|---|---|
| `Basic`, `Numeric` | exceptions; NumPy reductions shared by the models |
| `Files` | `strata/utils.py` (file names, discovery, grouping, `prepare_path`), loop of `strata/convert.py` |
| `Flow` | `droplets/flow.py`, `droplets/data_utils.py` |
| `Average` | `droplets/average.py` |
| `Resample` | `droplets/resample.py` |
| `ResampleInt` | `droplets/resample.py` and `combine_bins` for numbers of bins that may be negative |
| `Interface` | `droplets/interface.py` |
| `Sample`, `SampleAngle` | `droplets/sample.py` |
| `SampleSeries` | `strata/sample_average.py` |
| `Killed` | the loops of `average.py` and `convert.py` killed at any elementary step of `prepare_path` and the writers (C127) |
| `FloatAverage` | `dataformats/simple/average.py` with every arithmetic result rounded (C126) |
| `FloatFiles` | `utils.py: find_groups_to_singles`: output numbers as floats (C133) |
| `FloatMaps` | `droplets/average.py: average_data` with every arithmetic result rounded (C134) |
| `FloatAngles` | `droplets/sample.py: sample_per_angle_from`: the sampled angles with every result rounded (C135) |
| `FloatEdges` | `contact_line_analysis.py: get_coord_on_grid` with every result rounded (C136) |
| `RecenterEdges` | `average.py: average`: the call of `get_spreading_edges` for recentring and the options of the command (C137) |
| `KilledSeries` | `collect`, `sample_interfaces`, `sample_average_files` as elementary file-system steps, with interruptions (C138) |
| `FloatSpreading` | `collect` and the periodic tracker of `spreading/collect.py` with every result rounded (C139) |
| `FloatInterface` | `get_interface` from outside in, `_cell_is_droplet`, `_get_indices_in_radius`, `get_radius`, `get_cutoff` of `droplets/interface.py` with every result rounded (C140) |
| `CommandRuns` | `average_cli`, `convert_cli`, `spreading_collect_cli` of `strata/strata.py` from options to files and printed lines (C141) |
| `CommandSeries` | `interface_collect_cli`, `interface_sample_cli`, `interface_angle_cli`, `sample_average_cli` of `strata/strata.py` from options to files (C142) |
| `ContactLineFiles` | `extract_contact_line_bins`, `sample_contact_line_edges` of `strata/contact_line_analysis.py` and their commands in `strata/strata.py`, from options to files (C143) |
| (none: `PyText`, `Simple`, `SpreadingText`, `InterfaceText`, `GmxFlow`) | layouts of hand-made tables and headers, specified in `Spec/Layout` (C144, C145) |
| `FloatSample` | `droplets/sample.py` viscous dissipation, inertial energy and centre of mass with every result rounded (C146) |
| (none: `Interface`, `SpreadingText`) | C147, C148, C150 relate two runs of `Interface`; C149 reads hand-made files with `SpreadingText` |
| `Figure` | `decorate_graph` (utils.py), `create_figure` and the figures of `view_flowmap_2d` (view_flowmap.py) as lists of calls of Matplotlib |
| `StreamPlot` | `get_streamline_data` with rounded arithmetic and `plot_streamlines` (view_flowmap.py): what is passed to Matplotlib |
| `Concurrent` | `average`/`convert` with `prepare_path` (utils.py) as processes with elementary steps on a disk with inodes, interleaved by any schedule; reading a file and `makedirs` are one step each |
| `Collecting` | the commands that append rows to an output (`collect`, `sample_interfaces`, `sample_average_files`) as processes whose steps are interleaved; files are opened by name for every row |
| `FloatGrid` | `average.py: recenter_maps`, the numbers of bins and first bins in `droplets/average.py`, `interface/collect.py: get_yindex_data … transfer_values`, with every arithmetic result rounded (C130–C132) |
| `ContactLine` | `droplets/contact_line.py`, parts of `strata/contact_line_analysis.py` |
| `ContactLineMerge`, `ContactLinePipeline` | `strata/contact_line_analysis.py`: combination of edges, averages of edges, extraction of a series |
| `Bytes`, `PyText` | binary numbers, file positions, decoding; Python's number formatting and parsing on ASCII text |
| `GmxFlow` | `strata/dataformats/gmx_flow_version_1/*.py`, byte by byte |
| `Simple`, `SimpleAverage` | `strata/dataformats/simple/*.py`, `read.py`, `write.py` |
| `ReadFiles` | `strata/dataformats/read.py` and `strata/convert.py` on the bytes of files |
| `Driver` | `strata/average.py` |
| `Spreading`, `SpreadingEdges`, `SpreadingText`, `SpreadingFit`, `SpreadingFiles` | `strata/spreading/*.py`: tracking, edges, files as text, power law fit and figures, collecting on a file system |
| `SavedRuns` | `strata/interface/sample.py`, `strata/sample_average.py`, `strata/interface/angle.py`: the calls on a file system |
| `Groups` | `strata/utils.py`: file search with bounds that are not numbers and any group size; `average` with them |
| `InterfaceFiles`, `InterfaceText`, `InterfaceView` | `strata/interface/*.py`: collection, samples, angles, averages; files as text; `view_interfaces` on files |
| `View`, `ViewMap`, `ViewFlow` | `strata/view_flowmap.py`: the data behind the figures |
| `Headers` | options and headers of saved files (`strata/utils.py`, headers of all writers) |
| `Cli`, `Commands` | `strata/strata.py`: parameter types; options, defaults and calls of all commands |

Property theorems are in `lean/Verif/Props/*.lean`, one file per area, with a
concrete non-trivial instance (`example`) beside each theorem; helper lemmas
are in `lean/Verif/Proofs/*.lean`; specification vocabulary that is
independent of the model (e.g. what "cyclic run of filled cells" means) is in
`lean/Verif/Spec/*.lean`.

### Conventions

* **Numbers.** Floats are modelled as exact rationals `ℚ` (reals `ℝ` where
  `sqrt`, `arctan2`, `arccos` occur).  Every finite IEEE double is a rational,
  so all inputs are covered, but the rounding of intermediate results is not
  modelled.  NaN/Inf appear only where the contract of the code depends on
  them (0/0 followed by `nan_to_num`, `ZeroDivisionError`, spacing of a single
  column), and are then explicit values.  float32 conversion is explicit in
  the file formats.
* **Record arrays** are lists of labelled columns (`Flow.Record`); `val r l t` is
  the value of field `l` in row `t`.  The interface search looks at the same data
  row by row.
* **Mutation** is modelled by returning the new value; functions that change
  their argument (in-place `sort`) return the changed argument as well, so that
  later uses see it (see C60, C94).
* **Exceptions** are values (`Except Err α`), including unhandled ones such as
  `UnboundLocalError`.
* **Generators** are lists (the consumer sees the same sequence), laziness only
  matters where noted.
* **File system**: a finite map from path to content (association list).

### Model against the project's own tests

`lean/Verif/Conformance/` transcribes the project's unit tests (inputs, calls and expected values, with file and lines cited)
and has Lean's kernel evaluate them on the model, so that a model that computes something else than the tested program does not
build.  Left out are tests of plotting, of dtypes, of random numbers as such (replaced by fixed ones) and of arguments of a
Python type the model does not represent.

## 2. Trusted base

* Lean 4.33.0's kernel; theorems depend at most on `propext`,
  `Classical.choice`, `Quot.sound` (checked by `vcheck` and `#print axioms`).
* The reading of the Python code into the model; each definition cites file
  and lines.  Nothing was executed: semantics of Python 3, NumPy (`unique`,
  `sort(order=…)`, `where`, `gradient`, `average`, `reshape`, `meshgrid`,
  slices), and of the POSIX calls `rename`, `open` are as documented.
* Parameters of the model, i.e. code outside the repository about which a
  theorem assumes only what it states: the single precision codec `F32` (its
  laws are fields of the structure; the IEEE codec `ieee32` is constructed and
  proved to satisfy them), `scipy.optimize.leastsq` (any function; C99 assumes that
  it returns a minimiser), `DataFrame.to_string` (one line with the numbers of each
  row), Matplotlib (whether a figure is accepted), and the splitting of a command
  line by click (which values an option has).  `genfromtxt`, `loadtxt` and
  `savetxt` are modelled on ASCII text.
* Not modelled: floating-point rounding of intermediate results (except in
  `FloatAverage`, `FloatGrid`, `FloatFiles`, `FloatMaps`, `FloatAngles` and `FloatEdges`, which have no overflow or underflow; numbers read
  from or written to files are rounded as the formats demand), dtype promotion and
  overflow, progress bars, the pixels drawn by Matplotlib, the time stamps inside
  headers (any text), permissions and concurrent modification of the directory by
  other processes, memory and running time.

## 3. Properties: model and proof plan

* **C01 File numbering is injective and exact** — `Files.genFilenames`, own decimal printer; injectivity via a left inverse (digit parser).
* **C02 File discovery is the maximal gap-free prefix** — `Files.yieldSingles` with fuel = (end-begin+1) or the number of existing files + 1; spec = longest prefix; induction. Termination for end=inf by pigeonhole with C01's injectivity.
* **C03 Grouped and rolling file discovery** — `Files.yieldGroups`; spec = list of windows; induction on fuel.
* **C04 Single-file conversion keeps frame numbers and never maps two inputs to one output** — `Files.findSinglesToSingles`; corollary of C01, C02.
* **C05 Group output numbering** — `Files.findGroupsToSingles`; arithmetic of ceil division.
* **C06 Writing never destroys an existing file** — `Files.preparePath` over a finite FS; pigeonhole gives termination; theorem on every path of the resulting FS.
* **C07 Repeated writes and crashes keep every version** — operation traces of elementary FS steps; invariant by induction over the trace prefix.
* **C08 Constructed flow data returns what was put in** — `Flow.setData`; lookup theorem over columns.
* **C09 Equal-length requirement on input columns** — false of the code for length-1 columns: negation with witness and `_partial` theorem for the rest.
* **C10 System information is set exactly or rejected** — `Flow.setInfo` on an association list dictionary.
* **C11 copy is faithful and independent** — heap of objects, mutations as heap steps, non-interference by induction over the trace.
* **C12 lims selects exactly the bins in the closed interval** — `Flow.lims`; filter specification.
* **C13 Limiting is idempotent and order independent** — algebra of filters through C12.
* **C14 cut keeps exactly the requested rectangle** — `Flow.cut`; counting unique coordinates of a filtered product grid.
* **C15 Sorting only reorders** — `Flow.sort` as insertion/merge sort by lexicographic key; `List.Perm` and `Pairwise`.
* **C16 translate shifts exactly one column and is reversible** — `Flow.translate`; extensional equality of columns.
* **C17 get_lim_indices is the intersection of all limits** — `Flow.getLimIndices` with `intersect1d`; induction over the limits.
* **C18 The combined grid covers every input bin** — `Average.getCombinedGrid`; lattice arithmetic with Python's round-half-even.
* **C19 Projection onto a larger grid preserves the data** — `Average.transferData`; index arithmetic of the slice assignment.
* **C20 Averaging records: arithmetic mean** — `Average.averageData`; sums over lists.
* **C21 Averaging records: weighted mean** — same with division by zero made explicit.
* **C22 Averaging flow maps end to end** — composition of C18-C21.
* **C23 Empty maps in an average** — exclude=True: theorem; exclude=False: code raises, negation with witness.
* **C24 Downsampling conserves sums** — `Resample.downsample`; block sums as a partition of the index set (Finset sums).
* **C25 Downsampling weighted fields conserves weighted sums** — weighted block mean times block weight.
* **C26 Downsampled geometry is consistent** — index arithmetic and arithmetic series.
* **C27 Supersampling geometry and identity** — `Resample.supersample`.
* **C28 Supersampling is a bounded smoothing** — window means lie in the convex hull.
* **C29 Downsampling undoes supersampling's geometry** — false for the origin (shift by half a bin): negation and `_partial` for shape and spacing.
* **C30 Neighbour search** — `Interface.indicesInRadius` index filter.
* **C31 Liquid criterion** — `Interface.cellIsDroplet`, counting monotonicity.
* **C32 Outside-in interface search finds the outermost liquid bins** — `Interface.getInterfaceOutside`.
* **C33 Longest connected stretch with periodic boundary** — `Interface.findEdges` fold over the doubled layer; loop invariant (best run so far).
* **C34 Periodic search returns indices of the right bins** — true for data sorted by x inside a layer; false otherwise (code TODO): witness and `_partial`.
* **C35 Default search radius** — false for dx > dy: witness; `_partial` dx <= dy.
* **C36 Periodic search does not depend on the frame** — false: witness; `_partial`: interior statement.
* **C37 Contact angle from two layers** — `Interface.contactAngle` over ℝ with Complex.arg; error branches.
* **C38 Contact line cells are exactly the box** — `ContactLine.cells`.
* **C39 Aligning extracted cells to the origin** — `ContactLine.adjust`.
* **C40 Centre of mass** — `Sample.centerOfMass`.
* **C41 Inertial energy** — `Sample.inertialEnergy`.
* **C42 Viscous dissipation is non-negative and frame independent** — `Sample.viscousDissipation` with `np.gradient` edge_order 2; sum-of-squares form.
* **C43 Viscous dissipation is exact for low-order flow** — exactness of the difference stencils on quadratics.
* **C44 Flow angle** — ℝ, `Complex.arg`.
* **C45 Angular sampling assigns bins to their direction** — false on the negative x axis (sign(0)*arccos): witness; `_partial` away from the axis.
* **C46 Angular sampling uses the full circle** — false: directions in (360-size, 360) are dropped: witness and `_partial`.
* **C47 gmx_flow_1 round trip** — byte lists, header printer/parser, little endian codecs; round trip theorem.
* **C48 gmx_flow_1 header decoding for any file size** — false when the remaining file is shorter than the chunk: witness and `_partial`.
* **C49 Truncated gmx_flow_1 files are detected** — false: witness; characterisation as `_partial`.
* **C50 simple binary round trip** — byte lists; stride slicing inverse of interleaving.
* **C51 simple text files and binary detection** — UTF-8 decoding of the first bytes; witness of a binary file taken for text, `_partial`.
* **C52 Shape and spacing of simple files are recovered** — `Simple.calcInformation`; sorted grid argument.
* **C53 Format detection is the inverse of writing** — prefix test on bytes.
* **C54 Averaging simple-format data** — `Simple.averageData`.
* **C55 Combining simple-format bins conserves mass and momentum** — `Simple.combineBins`.
* **C56 Averaging a file series** — driver as a function of the list of groups; quiet=True fails: witness, `_partial`.
* **C57 Cut and combine keep data and information consistent** — false: witness; `_partial` without combine/cut.
* **C58 Recentred maps share a grid** — `Driver.recenterMaps`.
* **C59 Converting a file series** — driver over C02/C04.
* **C60 Sampling a series** — per-frame independence; label-order dependence: witness, `_partial`.
* **C61 Slip length of a linear profile** — least squares of exactly linear data.
* **C62 Spreading radius under periodic boundaries** — tracker state machine; invariant over histories.
* **C63 Both edges crossing in one step** — false for the positions; radius stays exact: witness and `_partial`.
* **C64 Spreading output rows are aligned with frames** — fold over frames.
* **C65 The impact header is written for every output file** — false: static flag; witness and `_partial`.
* **C66 Synchronised spreading curves** — `Spreading.syncTimeAtRadius`.
* **C67 Interface heights are put in the right row** — `InterfaceFiles.yindexOf`, `transferValues`; true for overlapping ranges without gaps, false otherwise (proved for all disjoint ranges).
* **C68 Interface length and area** — polyline length over ℝ (triangle inequality), trapezoid sums.
* **C69 Fused contact line edges** — `ContactLine.fuseEdges`.
* **C70 Snapping to the grid** — floor arithmetic.
* **C71 Evaporation and density gradients use the right axes** — `View.densityGradient`, `View.evaporation` on full grids in any row order: true for square bins; for all others the two spacings are swapped, proved for every linear density.
* **C72 Quiver selection** — `View.quiver`; true if no bin has flow along one axis only; otherwise false, proved for all maps with such a flow.
* **C73 Streamline region** — `View.streamlines` with the rounding of the quotient as parameter; `_partial` for file order, limits other than 0 and quotients rounded down; counterexamples (exact quotients, limit 0, no cutoff, sorted data), each for all maps.
* **C74 Optional numeric command line values** — the value readers as functions on characters (ASCII text, exact numbers); proved equivalent to an inductive grammar of Python integers and floats, in both directions; the end-of-range default on keyword lists.
* **C75 Scaling of spreading curves** — `Spreading.scaleData`, `combineData`.
* **C76 Fit range of spreading data** — `Spreading.indsInLimits`.
* **C77 Combined bins lie in the middle of the bins they combine** — true for simple files (`SimpleAverage.combineBins`); gmx maps are shifted by half a bin, proved for all such maps.
* **C78 Stored values are accurate to single precision** — `Bytes.ieee32`; nearest number by cases on the significand; corollary for gmx maps.
* **C79 Groups and times of contact line averages** — `ContactLine.groupLoop`, induction on the files.
* **C80 Contact line extraction and sampling produce output** — false for all inputs (undefined `std`; missing argument of `write`; unassigned `progress`), proved.
* **C81 Averaged contact line edges are put back on the grid** — `ContactLine.adjustCoordinates`.
* **C82 Shape of extracted contact line cells** — `ContactLine.cutShape`; true for at least two layers and dx <= 2 dy; counterexamples otherwise.
* **C83 Positions of bins survive writing** — `Driver.gmxWrite` followed by `Gmx.readData`; true if the origin is a corner, false (for all maps) if it is the first bin.
* **C84 Interfaces are tracked through periodic boundaries** — `InterfaceFiles.collectInterfaces`; induction over the series with the periodic information of one height as invariant, reusing C62's step lemma.
* **C85 Shape of interface files** — `InterfaceFiles.interfaceCoordinates`; invariant: the memory has one entry per height.
* **C86 Measured contact angles** — `InterfaceFiles.measureAngle` over ℝ; inclination as the argument of a complex number.
* **C87 Contact angle of a circular cap** — `InterfaceFiles.fitAngle`; half angle formula.
* **C88 Times of sampled interfaces** — `InterfaceFiles.sampleLoop`, `contactAngles`; induction.
* **C89 Averaged interfaces** — `InterfaceFiles.averageInterfaces` on interfaces given by layers.
* **C90 Averaged interfaces can be saved** — false whenever an average is saved (`KeyError`), proved for all groups; `_partial` without saving.
* **C91 The contact line used for spreading** — `Spreading.spreadingEdges` composed with C32/C33; `Spreading.floorLayer`: first least element of a list; counterexamples for the floor.
* **C92 Spreading curves from maps** — `Spreading.collectMaps`; composition with C62.
* **C93 Absolute and radial flow fields** — `View.absoluteFlow`, `View.radialFlow` over the reals; polar form of a complex number.
* **C94 Every map of a series is drawn** — `View.viewMaps`: the loop draws each map like a single one for every label but 'visc_diss', whose label is replaced after the first map (proved to fail for all series); the default type is always refused.
* **C95 Height maps show the bins** — `View.drawHeight` with the two-dimensional histogram modelled cell by cell; induction-free counting of cell boundaries below a grid position; cutoff `_partial` (outer rows and columns present) with a counterexample.
* **C96 Contour maps are drawn from the grid** — `View.drawContour`; true for file order; for sorted quantities true exactly for square grids (proved both ways); every effective cutoff is refused.
* **C97 Saved spreading curves are read back** — `SpreadingText.savedFile` and `readSpreading` at the level of characters; decimal formatting inverted by the float parser; induction over lines. `_partial`: the two edges are read as further series and curves with one point are lost, both proved for all files.
* **C98 Combined and fitted series are read back** — `SpreadingText.writeSeries`, `writeFits`, `readXvg`: splitting at '@target ' inverted by induction over the series; pandas' to_string is a parameter with a stated contract. `_partial`: any empty series makes the file unreadable (proved).
* **C99 Power law fits are optimal** — `SpreadingFit.fitSeries` over the reals; scipy's leastsq is a parameter assumed to minimise the sum of squares (shown to be satisfiable by linear regression); uniqueness by the parallelogram identity.
* **C100 Every series is fitted and drawn** — `SpreadingFit.fitSpreading`: the list of parameters and the written curves point by point; `_partial`: one short series makes the whole fit fail (proved), and times before the impact have no radius (proved).
* **C101 Spreading figures are drawn, saved and shown as asked** — `SpreadingFit.viewSpreading`, `fitSpreading` with the list of effects; `_partial`: view without save_xvg always fails, a fit that is not shown is never saved (both proved for all data).
* **C102 The legend shows the fitted parameters** — `SpreadingFit.fitLabel`: Python's strip removes characters, not a prefix; `_partial` for names without a space or the last digit of k, and false for all names with that digit.
* **C103 Combined contact line edges** — `ContactLine.combineFlow`: the edges are put on the common grid of C83 and merged label by label; the values are stated at positions of the result. `_partial`: a value of zero in one edge is taken as a missing bin (counterexample).
* **C104 Averaged contact line edges** — `ContactLine.edgeAverage`: each map's cells are moved to their corner (C39), sorted, given their shape (C82) and averaged (C21). The specification knows only boxes of the maps (`Edge`), corners and values at positions. `_partial`: flat bins, single layers and edges without cells; the failure of the latter two, and so of the default extraction area, is proved for every map.
* **C105 Maps of contact line extraction** — `ContactLine.combinedGroup`: composition of C104, C81, C69 and C103; the values of the result are stated at positions relative to the averaged edges.
* **C106 Collected interfaces are read back** — `InterfaceText.interfaceFile` is the text np.savetxt writes and `readPoints` the reading by np.genfromtxt; the file-level loop of collect (C59) is run on a file system and the result is discovered again (C02). Induction over the files written. Counterexample: old files under later numbers.
* **C107 The file of interface samples** — `InterfaceText.sampleFile` composed with `tableWords` (the reading of a table of words); area and length are those of C84.
* **C108 The file of contact angles** — `InterfaceText.angleFile`; the columns are those of C88.
* **C109 Headers record the options of the data** — Keyword options as association lists, headers as lists of lines (`Headers.*Header`); the specification only looks for lines `#   name: value`. Counterexamples for all options: time differences, radius cut-off of spreading, input files of interfaces.
* **C110 Commands pass their options on** — `Commands.*Options` are the tables of options with the declared defaults and `Commands.*Cli` the functions; the specification has the documented tables. The keyword arguments of the call are characterised at every name (`Gets`). Counterexamples: area of contact_line sample, --noaxis, height 0.
* **C111 Commands end as their functions do** — `Commands.collectCli`, `spreadingFitCli`, `interfaceCollectCli` with the library functions as parameters. Counterexample for all options: interface collect fails after it succeeded.
* **C112 Flow fields of a series are drawn one by one** — `View.viewFlowLoop` with the drawing library as a parameter; induction over the series.
* **C113 Arrows carry the colour of their own bin** — `View.colourFields` and `View.arrowsOf`; the figure of one map is characterised by the rows (or nodes of the grid) drawn, each arrow's colour by its own position and flow.
* **C114 Converted files keep positions and values** — `ReadFiles.convertFiles` composes the byte readers and writers of both formats with the driver's loop over the file system; round trip lemmas of the formats and the loop lemma of C59.
* **C115 Averaging files, bytes to bytes** — `AverageFiles`: the readers of bytes, `averageLoop` and the writer composed; the mean of the values in the bytes.
* **C116 Files are read in order, each on its own** — `ReadFiles.readFromFiles`: induction over the paths.
* **C117 Interfaces of a series are viewed group by group** — `InterfaceView.viewSeries` on files with the drawing library as a parameter; induction over the groups with the number of the next figure.
* **C118 Combined edges of interfaces** — `InterfaceView.combineInterfaces`; edges of an interface given by its layers, lookup by height.
* **C119 A range that is not a number finds nothing** — `Groups.findFiles`, `Groups.findGroups`: the generators with bounds of any kind and integer group sizes as step-bounded runs; agreement with the models of C02, C03 by induction.
* **C120 Group sizes below one change no file** — `Groups.averageAny`: `average` with the groups collected first; the cases of the group size.
* **C121 A spreading curve collected from files** — `SpreadingFiles.collectFiles`: header, file search and the loop with its appending writes on a file system with contents of any type; induction over the files with the invariant that the output is the header and the lines so far; composed with C06 and C97.
* **C122 The contact line of a map in a file** — `SpreadingFiles.fileFrame` on `OnGrid` maps (those a gmx file is read as): the periodic liquid bins of C91 in terms of column and layer numbers by a bijection of neighbours; layers are listed from left to right.
* **C123 Samples of a series in one output file** — `SavedRuns.run`: one loop for both functions, parametrised by what a file contributes (row, nothing, end of the call); induction over the files; instances for interfaces (with C107) and averages (with C60).
* **C124 Contact angles of a series on files** — `SavedRuns.angleRun`: all files before the output; case analysis over the first file that fails; table by C108.
* **C125 Which simple files keep the positions of their bins** — `Simple.readData`: shape for arbitrary coordinates (sorting and counting the lowest row); both directions of the equivalence by comparing lists entry by entry.
* **C126 Rounding errors of averages stay small** — `FloatAverage`: the averages with a rounding and an order of additions as parameters; error of a sum by induction over the tree of additions, error of a quotient from the errors of both sums; `roundBits 53` (nearest number with 53 binary digits) meets the hypotheses.
* **C127 Interrupted series leave good files only, and can be run again** — `Killed`: the loops with each write as a sequence of elementary steps; induction over the rounds with the exact states of a write that ends early; the loops of `Driver` and `ReadFiles` are proved to be its complete runs.
* **C128 Averages can be taken in stages and in any order** — The average is characterised bin by bin by sums (`IsAverage`), two maps with the same characterisation are equal; sums of sums give the law.
* **C129 Bins can be combined in stages, before or after averaging** — Both functions are characterised bin by bin by sums over blocks and over maps; blocks of blocks are blocks, sums over blocks and over maps commute. Weights below 0 are excluded (witness where the law fails).
* **C130 Recentred maps keep their shape in double precision** — The function is modelled with a parameter that rounds every result; without rounding it is the exact model. Columns are found by rounding to the nearest, which absorbs the errors; the number of columns is truncated: a theorem gives the exact condition for the right shape, with double-precision witnesses of wrong shapes and a proof for grids of binary fractions.
* **C131 The combined grid holds every map in double precision** — The numbers of bins and first bins are rounded to the nearest, and the errors are bounded.
* **C132 Interface layers keep their values between frames in double precision** — The index is k or k - 1; an exact condition, and double-precision witnesses of an error and of a wrong value.
* **C133 Output numbers are right in double precision** — The division, rounding up and counting are modelled with a rounding parameter; the distance of a fraction with denominator g from a whole number is at least 1/g, which exceeds the rounding error below 2^53.
* **C134 Rounding errors of averaged flow maps are bounded** — The function is modelled with rounding and summation as parameters; without rounding it is the exact model by definition. Errors are propagated through the sums, the mean weight, the total weight and the quotient.
* **C135 Sampled angles end at the given limit in double precision** — The count of np.arange is modelled with a rounding parameter; an exact condition for the right count, a proof for binary fractions of a degree and double-precision witnesses of an angle too many.
* **C136 Contact line edges are put in their own bin in double precision** — Modelled with a rounding parameter; the errors of the quotient and of the product are bounded.
* **C137 Recentring uses the contact line of the spreading analysis** — The edges `average` asks for are modelled as the search from outside in without a box; agreement with the periodic search is proved for drops in one piece away from the sides.
* **C138 Sampling runs that are interrupted** — The runs as lists of elementary file-system steps, whose complete execution is proved to be the run of the other models; a run cut short is that of one prepared write, by induction over the files.
* **C139 Spreading curves in double precision** — The tracker with every result rounded; all decisions are proved to be those of exact arithmetic under a margin, then error bounds for the rows, by induction over the maps.
* **C140 The interface in double precision** — The search with every result rounded; bounds for the rounded squared distances; equality with the exact search by extensionality of its lists; the displaced grid through the characterisation C32 of the exact result.
* **C141 Commands do to files what their options say** — A model of each command from its parsed options to the file system, composed from the command functions (C110) and the library on files; the meaning of options is a separate record in Spec/CommandRuns.lean; equality by evaluation of the dictionaries.
* **C142 Interface and sampling commands do to files what their options say** — As C141, for the commands that work on series of interfaces and maps; the sequence of two commands by composition of the collection on files (C106), the samples of collected interfaces (C107) and the saved runs (C123).
* **C143 Contact-line commands on files** — The loop over file names threading the file system; lemma: when no group lets the loop go on, the run is decided by the first group; backups by C06; groups by C79; options by C110. Counterexamples for every series whose first group can be averaged.
* **C144 Hand-made tables may be laid out in any way** — Spec/Layout: inductive descriptions of a line with words, of comments and of line ends; lemmas by induction on them: the words of a line are the words it holds, the lines of a text are its lines; both files reduce to the same table.
* **C145 Headers of binary maps may be laid out in any way** — The same layouts for header lines; induction on the lines: each entry is set by its lines and kept by the others, so the order does not count; the data are read the same wherever they begin.
* **C146 Sampled quantities in double precision** — Model/FloatSample: every arithmetic result rounded by a parameter fl with relative error u, sums in any order. Relative errors of sums of squares are propagated (no cancellation: the dissipation formula is bounded below by a third of the squares), the errors of the gradients are absolute (they cancel), then combined.
* **C147 Interfaces do not depend on the units** — Spec/InterfaceUnits: a change of units as a map on bins and options. The converted bins are an injective image which keeps distances relative to the radius, the order by x and the order within layers, so every step of the search (neighbours, sorting, first index, layers, periodic copies, default cut-off and radius) commutes with it; the angle is that of a positive multiple of the same vector.
* **C148 Stricter settings find no more liquid** — Monotonicity of the liquid criterion (C31) with the characterisation of the search (C32, C33); the counterexample for the longest stretch is evaluated by the kernel.
* **C149 Reading Grace files** — Spec/Grace: files as lines of settings and data sets with rows of number texts (Python's grammar, Spec/Cli) in any layout; the text is split at the target lines, the lines of every set are classified and read.
* **C150 Interfaces do not depend on how the bins are stored** — The reported positions are the liquid layers (C32), which are determined by the multiset of bins reaching the cut-off; the default cut-off, the default radius and the closest layer to the floor are functions of the multiset of bins where no tie occurs.
* **C151 Saved figures have the size asked for** — Model/Figure: the calls of Matplotlib as data. Spec/Figure: the pictures saved by a sequence of calls (inches times resolution). The options are followed through pop_figure_kwargs and create_figure for arbitrary option sets.
* **C152 The figures of a series are all saved** — The calls for n maps by induction on n.
* **C153 Figures are decorated as asked** — Membership in, and order of, the list of calls for an arbitrary drawing function and arbitrary options.
* **C154 Spreading curves in other units** — Spec/SpreadingUnits: a change of units of maps, options and curves. Every step of the collection commutes with it (cells, floor, edges, multipliers, loop); induction on the series.
* **C155 Averages in other units** — Spec/FieldUnits: a change of units of all fields. The specification of the average (averageFlow_spec) determines it on both sides: lattice, extents and values are compared.
* **C156 Sampled quantities in other units** — Each sampling function commutes with the change of units: sums, gradients and angles are followed through it.
* **C157 Selections and translations in other units** — Spec/FieldUnits; every operation commutes with the change of units: construction of the object (mk_units), masks, gathered rows, sorting, unique coordinates.
* **C158 Resampling in other units** — The cut, the geometry of the new grid and the blocks or windows of bins commute with the change of units; for weights the factors of the premultiplied fields are followed through the loop (premultiply_units).
* **C159 Streamlines in double precision** — Model/StreamPlot: `streamlines` with every result rounded by `fl`; the quotient of the extent is within 1/2 of the number of bins less one (NearGrid.quotient), so its integer part has two possible values; which of them allow the reshape is arithmetic. Line widths and density: directly.
* **C160 Maps seen in a mirror** — Interface: the liquid layers of the mirrored map are the mirrored layers and determine the result (isLayers_unique). Spreading: an invariant between the loop states of both runs (mirrorState), the direction of a crossing changes sign by the arithmetic of the remainder.
* **C161 Results do not depend on how the bins are stored** — Everything is written as a function of the list of bins (valueOf); functions that sort get the same record (sortRecord_canonical), sums and counts are invariant under permutations, selections are filters.
* **C162 Fields of mirrored and turned maps** — The values at the nodes (viscous_eq, C71_as_coded); reversing a row of values reverses the sign of its differences (gradient_reverse, slope_reverse), exchanging the axes exchanges them; the formula is even.
* **C163 Maps that are moved, turned or mirrored as a whole** — Motions are orthogonal matrices with a displacement, acting on bins; sums over bins are linear, cos and sin of an angle are the components of the unit vector (IsAngle), and radial flow times distance is a cross product, which a motion multiplies by its determinant.
* **C164 Commands that run at the same time** — Processes with elementary steps on a disk with names, inodes and directories, moved by an arbitrary schedule (Model/Concurrent). A step depends on and changes only what the command owns (frame lemmas), so by induction over the schedule each process is where it would be alone after as many steps; alone it refines the sequential model of C127 (runJobs) and ends; an invariant keeps all old files. Races as counterexamples.
* **C165 Simple maps that are cut short** — The reader on the bytes of the first part: which columns result from the values that are there (lengths of the strides), which shape is found (the number of values of Y near the lowest one, by sortedness, for any coordinates), and when the grid and the fields have different lengths, which is what the map class refuses. For a grid cut after whole rows the result is determined exactly; accepted parts are counterexamples, general where possible.
* **C166 Outputs that are looked at while commands run** — The processes of C164. An invariant of a process alone (Proofs/Watched) says which file each name stands for: a file of the start under its name or as a backup, or the m-th new file at the output of round m, whose bytes are a first part of what that round writes; by C164 it carries over to any schedule. That a part can be taken for a map is shown by a run of convert in the model (with C165).
* **C167 Commands that collect rows at the same time** — Processes that test, rename, create, read and append by name, one step each, interleaved by any schedule (Model/Collecting). A step looks only at what the command uses and changes only what it owns, so by induction over the schedule each process is where it is alone; a process alone is shown to do what the models of C121 and C123 do (induction over the files of the series), and its output, once created, only grows.
* **C168 Angular samples of maps that are moved or turned** — By C45_as_coded each value is the weighted mean over the bins whose direction as taken by the program is in an interval; directions of turned offsets are turned (addition theorems), and the sums over rows are sums over bins, which a motion permutes (C163).
* **C169 Colours of flow maps in other units** — The models of C71 and C93 on a map whose columns, origin and spacing are converted (FieldUnits, as in C156): sorting commutes with the conversion, differences and quotients scale. What happens with different units along x and y is stated as coded.
* **C170 Sampled series in other units** — The model of C60 on files whose columns and information are converted (SameFile: FieldUnits as in C156). Selection (cutoff given or midpoint) is invariant, statistics are homogeneous of degree one (variance two), regression lines are equivariant; induction over labels (the flow object is sorted in place by visc_diss) and files.
* **C171 Sums over parts of a map** — The model of C60 with limits: the sampled sum is the sum over the bins of the file inside the closed rectangle (C60_limits, C60_statistics), and closed intervals that meet overlap in their common end. Counterexamples for dissipation and for cutoffs at the midpoint are computed.
* **C172 Averages conserve totals and stay in range** — From the value of every averaged bin (C22): positions of a map embed injectively into the combined grid and other bins count zero there, so sums over the grid are sums over the map; means and weighted means lie between bounds by induction over the maps.
* **C173 What is known of a series does not change when the series goes on** — Discovery by comparing the maximal prefixes of C02/C03 in both directories; the loops over files by induction over the shorter series, for saved files from the contents of the output (C121).
* **C174 Averages and combined bins of simple maps in other units** — Every step of both functions commutes with multiplying columns by factors: sums are linear, quotients of sums of weighted values by sums of weights lose the factor of the weight, and sums of weights that are not negative vanish only with the weighted sums. The comparison of coordinates scales with its absolute tolerance; counterexamples for a fixed tolerance and for a moved origin are computed.
* **C175 Numbers of bins that make no sense** — The three functions for integers (Model/ResampleInt.lean), with Python's division and empty ranges; equal to the models for natural numbers where these apply. Signs of rounded quotients for refusals; for negative numbers it is proved of all maps that every bin is lost.
* **C176 Results depend on the maps, not on the files that hold them** — By simultaneous induction over both series: a step of the loop uses the name of a file only for messages. Saved runs reduce to unsaved ones by C121/C123; the converted series is C114 (gmx to gmx) with discovery compared by C02; averages are two uses of the series theorem of C56, and with failures a simultaneous induction over the loops; interfaces by induction over both series.

## 4. Findings: where the code does not do what a user expects

Each of these is a theorem about the model (suffix `_counterexample`, or a
name saying what happens), for all inputs of the kind described unless marked
(witness).  The property is then `partial` in `MANIFEST.json`, with the part
that does hold proved.

| Property | Behaviour |
|---|---|
| C09 | A column of length 1 among longer ones is broadcast silently. |
| C22, C23 | Unset spacing with two or more maps raises `TypeError` (documented: `ValueError`); an empty map that is to be included makes every average fail. |
| C29 | Supersampling and combining back moves the origin by (dx - dx/n)/2. |
| C34–C36 | Droplet search: unsorted layers, default radius for bins finer in y, translations that leave the box (witnesses). |
| C37 | No liquid above the floor ends in `StopIteration` or `UnboundLocalError` instead of (None, None). |
| C38 | A wider area can lose cells if its height is below the extraction height (witness). |
| C45, C46 | The negative x axis is counted as 0 degrees; data between 360 - size and 360 degrees is dropped. |
| C47–C49 | gmx files shorter than 1024 bytes are read from a wrong position; a file cut so that one value of V remains is broadcast; a file with fewer than 16 bytes to read is accepted as an empty map; a file cut by one byte can be accepted with all values shifted; a file cut in the header hangs the reader. |
| C50–C53 | Simple files: a dict in row order is misread; binary files may be taken for text, undecodable files as text after 8192 bytes; a single row or column has no spacing, rows closer than 1e-4 are merged; a binary file spelling `FORMAT GMX_FLOW_1` is taken for gmx (witnesses). |
| C125 | Simple files in which bins are missing are read without an error, with positions of another grid and fewer positions than values; this happens with the project's own test file data_avgsimple.dat (9 values, 8 positions). Exact condition proved. |
| C56, C57 | `average(quiet=True)` raises `UnboundLocalError` after writing everything; with combine, supersample or a cut nothing is ever written. |
| C58 | Recentred maps whose columns do not coincide have no common positions (witness). |
| C60 | `visc_diss` sorts the data in place, so `slip_length` after it is wrong (witness); a cutoff without label is ignored; any exception makes the sampling return None. |
| C63–C65 | Spreading: both edges crossing at once (witness), gaps shift later times, the impact block is written only once per process. |
| C67 | Periodic information of interface layers lands in rows of other heights if ranges are disjoint; nearby heights count as equal. |
| C71–C73 | Density gradient uses dx for dy and vice versa; arrows with flow along one axis are dropped; the streamline grid fails for exact quotients, limits of 0 are ignored. |
| C77, C83, C114, C115 | Maps move by half a bin when combined from gmx data, recentred, converted from simple to gmx, or averaged from simple files. |
| C80, C82 | Contact line extraction: undefined spread exits, no information raises `TypeError` after an existing output was moved away; dx used for dy. |
| C86, C87, C90, C91 | Interfaces: NaN angle below half a layer; fit uses the absolute height; saving averages always raises `KeyError` (after moving an old output away, C117); the floor formula depends on the unit of length. |
| C93–C96 | 'radial' colour is the tangential flow; `visc_diss` fails from the second file on; the default map type is refused; cutting an outer column shifts the height map (witness); contours of sorted data are wrong unless nx = ny and fail with an effective cutoff. |
| C97, C98 | Files of `spreading collect` are read as three series; a curve of one point is lost; an empty series makes a saved file unreadable. |
| C100–C102 | One short series makes all fits fail; `view_spreading` without `save_xvg` raises `KeyError`; without `show` the fit figure is never saved; labels are stripped of characters. |
| C103, C104 | Merging edges takes 0 as missing; one map without an edge, or the default area (0, 0), makes the group fail with `IndexError`. |
| C106 | Old output files beyond the last number are taken into the series if no end is given. |
| C109–C111 | Headers record Delta-t 1.0, radius 1.0 and the output as input; `interface angle` refuses height 0; default area of `contact_line sample` is empty though 1 nm is documented; `--noaxis` of `view height` is ignored; `interface collect` always ends in `TypeError`. |
| C112, C113 | A map that cannot be drawn silently ends the series; colour 'flow' uses U, V whatever the labels. |
| C119, C120 | Bounds that are not numbers find nothing, silently; group size 0 raises `ZeroDivisionError` (rolling: `AssertionError`) or never ends. |
| C114 | `outext` with a simple format raises `TypeError` after an existing output was moved away. |
| C127 | After an interrupted `average` in place, a second call averages outputs of the first one as if they were inputs (witness); the originals are kept as `#name.1#`. |
| C130 | `recenter_maps` truncates `(xmax - xmin)/spacing`: in double precision the shape is wrong for many grids (4 x 2 bins 0.1 wide: 2 x 3 instead of 3 x 2), so that the average is written with wrong positions or not at all (`IndexError`). |
| C132 | `get_yindex_for_value` truncates: for layers 0.013 apart from -0.012 the last of four layers gets the index of the one below; the next frame raises `ValueError` or takes the wrong periodic shift. |
| C135 | `np.arange(amin, amax + size, size)` in double precision gives one angle too many for about a fifth of the limits with one decimal (0 to 0.2 in steps of 0.1: also 0.3), and 162 angles for a full circle in 161 parts. |
| C136 | `np.floor(x / dx)` in double precision: an edge at 0.3 is put in bin 2 of a grid with the spacing 0.1, one at 0.4 in bin 4. |
| C137 | `average --recenter left/right` does not search the contact line as `spreading collect` does: no periodic box, outermost bins instead of the longest stretch; and the default cut-off 0 makes every bin liquid, so by default the option changes nothing. |
| C139 | `spreading collect`: an edge that comes to the position 0 after several turns through the box can be put two boxes too far, because the remainder of the rounded absolute position is taken instead of the position: a box of 0.7, fourth crossing. Edges in the middle of bins are safe. |
| C140 | `get_interface` and `get_contact_angle` without a radius: the default radius is the smallest computed difference between columns; on a grid with spacing 0.1 it is below the other differences by a rounding error, no bin has a neighbour and no interface is found. A radius of a whole number of bins finds different neighbours from different columns. |
| C142 | `strata interface angle BASE -h 0 -x OUT` writes nothing: the height is tested for truth. |
| C143 | `strata contact_line collect BASE BASE` renames the first input file to a backup name and then fails with a `TypeError`: nothing is written and a second run finds no files. |
| C144 | A comment above the line of names of a text map is taken for the names: the file is refused although comments are allowed elsewhere. |
| C145 | An empty line in the header of a binary map raises `IndexError`. |
| C146 | In double precision a uniform flow gets tiny positive dissipations on the border of the map (one-sided differences round), exactly 0 inside. |
| C149 | `read_spreading_data` returns nothing, without a warning, for xvg files without `@target` lines (all files of Gromacs tools); a comment or an empty line within a data set makes a Grace file unreadable as a whole. |
| C150 | A contact angle floor midway between two layers is the layer that happens to be stored first; the periodic search reports other edges when the rows are reordered. |
| C151 | `decorate_graph` removes `dpi` from the options before `create_figure` looks for it, so `--dims` is divided by 300 always: at the default resolution of 150 saved figures have half the width and height asked for. |
| C152 | `view_flowmap_2d` saves the figures of all its files to the same path: only the last one is left. |
| C154 | A given floor is compared with the layers through the ceiling of the height difference, so the layer used depends on the unit of length: 0.2 nm takes the layer above it, 2 Å the one below. |
| C155 | Spacings are compared by `np.isclose` with its absolute tolerance of 1e-8: maps with bins of 1 nm and 2 nm are refused in nanometres and averaged, bin by bin, in metres. |
| C159 | Streamlines are drawn only if both `(x1 - x0) / dx` and `(y1 - y0) / dy` are rounded below the whole number: with bins of 0.3 from 0.15, maps of two or four columns are drawn and maps of three are not; positions that are stored exactly are never drawn. With fewer than 30 bins in a direction the density is 0 and the figure stays empty. |
| C160 | Two stretches of liquid of the same length: the periodic search takes the left one, so a mirrored map gives another drop. A crossing that ends exactly in the middle of the box is always taken to be to the right. |
| C161 | `average_flow_data` takes the bins row by row without sorting them, and its documentation does not ask for it: maps of different areas stored column by column, as they are read from gmx files (C47), are silently averaged with values of other bins. `strata contact_line` sorts first and is not affected. |
| C163 | A bin at the centre of mass gets minus its flow along y as radial flow (the angle of the zero vector is taken as 0), so its colour depends on the orientation of the system; and bins lose their arrows when the flow is turned into the direction of an axis (see C72). |
| C164 | `prepare_path` tests names and renames later: two commands with the same output may choose the same name for the backup, and the second rename destroys the old file; `os.makedirs` without `exist_ok` ends a command if another one has just made the directory. |
| C165 | The simple binary format has no length, and the shape is found from the rows that are there: a file cut after whole columns is read as a smaller map, one cut within a column may be read as a map of another height with the values in the wrong bins (3 × 5 bins cut to 8 rows: 2 × 4 bins). |
| C166 | Outputs are written in place, not to a temporary name that is then renamed: a reader that comes too early finds a part of the file, and a part of a simple binary map may be accepted as another map. |
| C167 | Rows are appended to the output by opening it again by name: if another command with the same output starts meanwhile, the remaining rows of the first end up in the file of the second, without any error. |
| C168 | Because bins on the negative x axis are taken to be at 0 degrees, a value that is sampled at 90 degrees is lost when the map is turned through 90 degrees. |
| C171 | Dissipation sampled in two windows that meet does not add up to that of both together (the gradients across the border are lost), and with a cutoff label but no cutoff the midpoint is taken anew in every window. |
| C174 | `average_data` compares coordinates with a fixed absolute tolerance of 0.001 and a relative one: maps half a bin apart are refused in nanometres and averaged in micrometres, and maps 0.01 apart are refused near the origin and averaged 1000 away from it. |
| C175 | `downsample_flow_data` and `supersample_flow_data` accept negative numbers of bins and silently return a map without any bins, with a negative shape and a positive number of bins in its information. |

Further observations that are modelled but not stated as properties: `np.float`,
`plt.hold` and `Series.append` are gone in current releases of their libraries
(the model takes the releases in which they exist); group size 0 never ends
(`C03_group_zero_diverges`); `pop_fileopts` leaves `outext` among the options; the
documented default format of `convert` is not the actual one.

## 5. How the theorems were tested

`seeded/LOG.jsonl` has one line per wrong program: the definition edited in a
scratch copy of the model, the edit, the claim it breaks and the theorems that
failed to build; `tightened` names the theorem strengthened when an edit went
unnoticed.  Edits marked harmless do not change the behaviour the claim is about.
