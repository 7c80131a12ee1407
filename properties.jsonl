{"id": "C01", "title": "File numbering is injective and exact", "statement": "gen_filenames(base, begin, end, ext) yields exactly one name per frame number begin..end in ascending order; the name of frame n is base + n in decimal padded with zeros to at least five digits + ext; two different frame numbers never produce the same name for the same base and extension.", "quantifier": "every base, extension, begin, end and every pair of frame numbers, including numbers of more than five digits", "why_tests_cant": "A test tries a few numbers; a collision would silently overwrite a map at some frame number nobody tried (e.g. at the 99999/100000 boundary).", "anchors": ["strata/utils.py: gen_filenames"]}
{"id": "C02", "title": "File discovery is the maximal gap-free prefix", "statement": "find_datamap_files(base, begin, end, ext) without grouping yields exactly the names of frames begin, begin+1, ..., begin+k-1 where k is the largest number such that all of these files exist and are <= end; a file after a gap is never yielded.", "quantifier": "every set of existing files, begin, end (or unbounded)", "why_tests_cant": "The property ranges over all directory contents; tests use one directory.", "anchors": ["strata/utils.py: find_datamap_files, yield_singles"]}
{"id": "C03", "title": "Grouped and rolling file discovery", "statement": "With group=g every yielded bundle has exactly g consecutive frames that all exist and lie in [begin, end]; bundle k starts at begin+k*g (begin+k when rolling); the number of bundles is maximal, so an incomplete trailing bundle is the only thing dropped.", "quantifier": "every set of existing files, begin, end, g >= 1, rolling or not", "why_tests_cant": "All directory contents, group sizes and bounds.", "anchors": ["strata/utils.py: find_datamap_files, yield_groups"]}
{"id": "C04", "title": "Single-file conversion keeps frame numbers and never maps two inputs to one output", "statement": "find_singles_to_singles pairs the input file of frame n with the output file of the same frame n, with the output extension, for exactly the discovered frames; output names are pairwise distinct.", "quantifier": "every set of existing files, bases, extensions and bounds", "why_tests_cant": "All directory contents; a mispairing at a late frame is not visible in a small test.", "anchors": ["strata/utils.py: find_singles_to_singles", "strata/convert.py: convert"]}
{"id": "C05", "title": "Group output numbering", "statement": "find_groups_to_singles numbers the outputs consecutively from ceil(begin/g) (from begin when rolling); without rolling this is ceil(N/g) for the bundle that starts at frame N; outputs are pairwise distinct.", "quantifier": "every begin, g >= 1, number of bundles and set of existing files", "why_tests_cant": "Universal arithmetic fact over begin and g.", "anchors": ["strata/utils.py: find_groups_to_singles, pop_fileopts"]}
{"id": "C06", "title": "Writing never destroys an existing file", "statement": "For a writer decorated with prepare_path, when the wrapped function starts nothing exists at the target path, every file that existed before still exists with its content (the old target under '#name.i#' in the same directory, everything else where it was), and i is the smallest free number; i is found in at most (number of files + 1) probes.", "quantifier": "every file system state (any set of existing files and backups, gaps in backup numbering included) and target name", "why_tests_cant": "All file-system states; tests create one conflict.", "anchors": ["strata/utils.py: prepare_path, backup_conflict"]}
{"id": "C07", "title": "Repeated writes and crashes keep every version", "statement": "After any sequence of writes through prepare_path, stopped after any number of elementary file-system steps (rename, create, partial write), every content that had been completely written before the interrupted operation is still present in some file.", "quantifier": "every operation history and every crash point between elementary file-system steps", "why_tests_cant": "Crash points and histories cannot be enumerated by tests.", "anchors": ["strata/utils.py: prepare_path", "strata/dataformats/simple/write.py: write", "strata/dataformats/gmx_flow_version_1/write.py: write"]}
{"id": "C08", "title": "Constructed flow data returns what was put in", "statement": "FlowData(*data) given columns of equal length stores every column under its label with value and order unchanged; a column whose length differs from the first and is not 1 raises ValueError; labels without a value are absent (get_data gives None).", "quantifier": "every list of labelled columns (tuples or dicts, any mixture)", "why_tests_cant": "All column counts, lengths and values.", "anchors": ["droplets/flow.py: FlowData.set_data, FlowData.get_data"]}
{"id": "C09", "title": "Equal-length requirement on input columns", "statement": "FlowData accepts only columns of equal length (the documented contract: ValueError otherwise).", "quantifier": "every list of labelled columns", "why_tests_cant": "The one bad family (a length-1 column is broadcast) is easy to miss with sample inputs.", "anchors": ["droplets/flow.py: FlowData.set_data"]}
{"id": "C10", "title": "System information is set exactly or rejected", "statement": "set_info stores shape, origin, spacing and num_bins given and resets the ones not given to None; any unknown key raises KeyError.", "quantifier": "every information dictionary and every previous state", "why_tests_cant": "Order-independent over all dictionaries and previous states.", "anchors": ["droplets/flow.py: FlowData.set_info"]}
{"id": "C11", "title": "copy is faithful and independent", "statement": "flow.copy() has the same columns and the same information as flow; any sequence of in-place updates of either object leaves the other unchanged.", "quantifier": "every flow object and every sequence of later mutations on either object", "why_tests_cant": "Aliasing bugs only show for particular mutation sequences.", "anchors": ["droplets/flow.py: FlowData.copy"]}
{"id": "C12", "title": "lims selects exactly the bins in the closed interval", "statement": "flow.lims(label, vmin, vmax) contains precisely the bins whose value lies in [vmin, vmax] (None meaning unbounded), in their original order, with num_bins equal to the number of bins, spacing kept and shape/origin unset; the input is unchanged; an unknown label raises KeyError.", "quantifier": "every flow object, label and pair of limits", "why_tests_cant": "All data sets and limits, including boundary equality.", "anchors": ["droplets/flow.py: FlowData.lims"]}
{"id": "C13", "title": "Limiting is idempotent and order independent", "statement": "Applying lims twice with the same arguments equals applying it once, two lims calls on any labels commute, and chaining equals the intersection of the conditions.", "quantifier": "every flow object, pair of labels and limits", "why_tests_cant": "Algebraic law over all inputs.", "anchors": ["droplets/flow.py: FlowData.lims"]}
{"id": "C14", "title": "cut keeps exactly the requested rectangle", "statement": "flow.cut(xlim, ylim) contains exactly the bins inside the closed rectangle (a missing bound defaulting to the system's own edge); on a full regular grid the resulting shape times its entries equals the number of remaining bins and num_bins agrees.", "quantifier": "every grid origin, shape, spacing and limits", "why_tests_cant": "All grids and limits.", "anchors": ["droplets/flow.py: FlowData.cut"]}
{"id": "C15", "title": "Sorting only reorders", "statement": "flow.sort() keeps the multiset of bins and orders them by y, then by x; bins never mix fields.", "quantifier": "every data set, including ties", "why_tests_cant": "All permutations of input.", "anchors": ["droplets/flow.py: FlowData.sort"]}
{"id": "C16", "title": "translate shifts exactly one column and is reversible", "statement": "flow.translate(label, v) adds v to that column and leaves every other column, the order and the information unchanged; translating by -v afterwards restores the object; the input is unchanged; an unknown label raises KeyError.", "quantifier": "every flow object, label and value", "why_tests_cant": "Algebraic law over all inputs.", "anchors": ["droplets/flow.py: FlowData.translate"]}
{"id": "C17", "title": "get_lim_indices is the intersection of all limits", "statement": "The returned indices are exactly the ascending positions of rows that satisfy every given (label, min, max) limit; with no limits all positions are returned.", "quantifier": "every record and every dictionary of limits", "why_tests_cant": "Any number of limits in any order.", "anchors": ["droplets/data_utils.py: get_lim_indices"]}
{"id": "C18", "title": "The combined grid covers every input bin", "statement": "For data on lattices with the given spacing, get_combined_grid returns a regular y-major grid with the given spacing whose origin is the minimum over all non-empty inputs and whose last coordinate is the maximum; every input bin coincides with exactly one grid bin; no input gives ValueError.", "quantifier": "every non-empty list of lattice-aligned data sets", "why_tests_cant": "All relative offsets and sizes of the inputs.", "anchors": ["droplets/average.py: get_combined_grid"]}
{"id": "C19", "title": "Projection onto a larger grid preserves the data", "statement": "transfer_data writes bin (i, j) of the data into the grid bin with the same coordinates, leaves all other grid bins as they were, and preserves the total of every non-coordinate field; the input grid is not modified.", "quantifier": "every grid, contained aligned data set and shape", "why_tests_cant": "All offsets and shapes.", "anchors": ["droplets/average.py: transfer_data"]}
{"id": "C20", "title": "Averaging records: arithmetic mean", "statement": "average_data returns for every non-coordinate, non-weighted field the arithmetic mean over the inputs in each bin, so averaging copies of one record returns it, the result lies between the smallest and largest input, and the order of inputs does not matter.", "quantifier": "every non-empty list of equal-size records", "why_tests_cant": "All list lengths, values and permutations.", "anchors": ["droplets/average.py: average_data"]}
{"id": "C21", "title": "Averaging records: weighted mean", "statement": "For a (label, weight) pair whose weight field is itself averaged arithmetically, average_data returns sum(value*weight)/sum(weight) in each bin with non-zero weight sum, and 0 where all weights are 0, so sum of weight*value (e.g. momentum) is conserved by the average.", "quantifier": "every non-empty list of equal-size records, weights of any sign", "why_tests_cant": "Zero-weight bins and all values.", "anchors": ["droplets/average.py: average_data, calc_weighted_mean"]}
{"id": "C22", "title": "Averaging flow maps end to end", "statement": "average_flow_data of maps that share spacing equals, in every bin of the union grid, the mean over maps where a map contributes zero outside its own extent; it fails with ValueError exactly when there is no input, the spacing is unset or the spacings differ.", "quantifier": "every list of aligned regular maps", "why_tests_cant": "All combinations of map extents.", "anchors": ["droplets/average.py: average_flow_data"]}
{"id": "C23", "title": "Empty maps in an average", "statement": "With exclude_empty_sets=True empty maps do not influence the result; with exclude_empty_sets=False (documented: included as empty bins) they count as all-zero maps.", "quantifier": "every list of maps, some of them empty", "why_tests_cant": "Position and number of empty maps.", "anchors": ["droplets/average.py: average_flow_data, transfer_data"]}
{"id": "C24", "title": "Downsampling conserves sums", "statement": "downsample_flow_data replaces each nx*ny block of bins by one bin holding the block sum of every unweighted field; the total over the covered bins is preserved (over all bins when nx, ny divide the shape).", "quantifier": "every regular map in any bin order, block size >= 1 and limits", "why_tests_cant": "All shapes, block sizes, orders.", "anchors": ["droplets/resample.py: downsample_flow_data, _combine_bins"]}
{"id": "C25", "title": "Downsampling weighted fields conserves weighted sums", "statement": "For (label, weight) the new value is the weighted mean of the block, 0 if the block's weight is 0; with weight summed, weight*value is conserved over the covered area and the mean lies between the extreme values for non-negative weights.", "quantifier": "every regular map, block size and weights", "why_tests_cant": "All values, zero-weight blocks.", "anchors": ["droplets/resample.py: _combine_bins"]}
{"id": "C26", "title": "Downsampled geometry is consistent", "statement": "The new map has spacing n*spacing, shape shape//n, num_bins = product of the shape = number of rows, and each new bin centre is the mean of the centres of the bins it combines.", "quantifier": "every regular map, block size and limits", "why_tests_cant": "All shapes and origins.", "anchors": ["droplets/resample.py: _get_downscaled_grid_info, _get_downscaled_grid_coords, _cut_system_limits"]}
{"id": "C27", "title": "Supersampling geometry and identity", "statement": "supersample_flow_data with factor None or 1 returns an equal copy; otherwise shape is multiplied and spacing divided by the factor, so the physical size is unchanged, the data covers the grid y-major, and the input is unchanged.", "quantifier": "every regular map and factor", "why_tests_cant": "All shapes and factors.", "anchors": ["droplets/resample.py: supersample_flow_data"]}
{"id": "C28", "title": "Supersampling is a bounded smoothing", "statement": "Every unweighted value after supersampling lies between the minimum and maximum of that field in the input, constant fields stay constant; weighted values with non-negative weights lie within the input range or are 0 when no weight is in reach.", "quantifier": "every regular map, factor >= 2 and field", "why_tests_cant": "All values and window positions incl. borders.", "anchors": ["droplets/resample.py: _supersample_data_on_grid, _transfer_data_to_finer_grid"]}
{"id": "C29", "title": "Downsampling undoes supersampling's geometry", "statement": "downsample_flow_data(supersample_flow_data(flow, n), (n, n)) restores shape, spacing and origin of flow.", "quantifier": "every regular map and factor", "why_tests_cant": "Round trip over all geometries.", "anchors": ["droplets/resample.py: _get_superscaled_grid_info, _get_downscaled_grid_info"]}
{"id": "C30", "title": "Neighbour search", "statement": "The neighbours of a bin are exactly the other bins whose distance is at most the radius; the relation is symmetric and grows with the radius.", "quantifier": "every data set, bin and radius", "why_tests_cant": "All geometries, boundary distances.", "anchors": ["droplets/interface.py: _get_indices_in_radius"]}
{"id": "C31", "title": "Liquid criterion", "statement": "A bin is liquid iff its value is at least the cut-off and at least cutoff_bins other bins within the radius also are; raising cut-off or cutoff_bins or lowering the radius never makes a bin liquid, raising any value never makes a liquid bin non-liquid.", "quantifier": "every data set, cut-off, radius and count", "why_tests_cant": "Monotonicity over all data.", "anchors": ["droplets/interface.py: _cell_is_droplet"]}
{"id": "C32", "title": "Outside-in interface search finds the outermost liquid bins", "statement": "With the default method get_interface yields, for every layer that contains a liquid bin and lies within ylims, in strictly ascending y, the indices into flow.data of the leftmost and rightmost liquid bin of that layer, for any order of the data.", "quantifier": "every data set without duplicate bins, cut-off, radius, ylims", "why_tests_cant": "All data orders and layers.", "anchors": ["droplets/interface.py: get_interface, traverse_layer"]}
{"id": "C33", "title": "Longest connected stretch with periodic boundary", "statement": "With search_longest_connected the stretch chosen in a layer consists of liquid bins only, is a maximal-length cyclic run of liquid bins, is found iff the layer has any liquid bin, and is the entire layer iff all bins are liquid.  The search returns for exactly the maps with a cut-off, a radius that is not negative, and a known box size (and for uniform maps without a given cut-off, where nothing is found).", "quantifier": "every pattern of filled cells of any length, wrap-around included", "why_tests_cant": "2^n patterns for every n.", "anchors": ["droplets/interface.py: find_interface_edges_in_layer"]}
{"id": "C34", "title": "Periodic search returns indices of the right bins", "statement": "The indices yielded by the periodic method designate bins of the layer at the ends of the chosen stretch.", "quantifier": "every data set, in any bin order", "why_tests_cant": "Depends on data order, which tests fix to sorted.", "anchors": ["droplets/interface.py: get_interface"]}
{"id": "C35", "title": "Default search radius", "statement": "Without cutoff_radius the search uses the minimum distance found between cells in the system.", "quantifier": "every grid spacing", "why_tests_cant": "Only square bins are tested.", "anchors": ["droplets/interface.py: get_radius"]}
{"id": "C36", "title": "Periodic search does not depend on the frame", "statement": "Translating a map (data and origin) in x does not change which bins the periodic method finds.", "quantifier": "every map and shift", "why_tests_cant": "Tests have origin 0.", "anchors": ["droplets/interface.py: get_interface"]}
{"id": "C37", "title": "Contact angle from two layers", "statement": "get_contact_angle returns (None, None) when the floor layer has no liquid; otherwise angles in [0, 180] degrees, mirror images give swapped angles, computed from the bottom layer and the highest layer within the height.", "quantifier": "every sequence of interface layers and height", "why_tests_cant": "All layer geometries; also the error path with no layer in reach.", "anchors": ["droplets/interface.py: get_contact_angle"]}
{"id": "C38", "title": "Contact line cells are exactly the box", "statement": "get_contact_line_cells returns exactly the bins within the closed box spanned by the interface points up to the extraction height and the inward width; widening the area never removes bins.", "quantifier": "every data set, interface and extraction area", "why_tests_cant": "All interface shapes.", "anchors": ["droplets/contact_line.py: get_contact_line_cells"]}
{"id": "C39", "title": "Aligning extracted cells to the origin", "statement": "adjust_cell_coordinates moves the cells rigidly so that the lowest y is 0 and, for 'right', the smallest x is 0 (for 'left', the largest); adding the returned vector restores the input; empty input is returned unchanged with (0, 0); another direction raises KeyError.", "quantifier": "every set of cells and direction", "why_tests_cant": "All cell sets.", "anchors": ["droplets/contact_line.py: adjust_cell_coordinates"]}
{"id": "C40", "title": "Centre of mass", "statement": "sample_center_of_mass is the mass-weighted mean, raises ZeroDivisionError iff the total mass is 0, lies within the coordinate range for non-negative masses, follows translations and is unchanged by scaling all masses.", "quantifier": "every data set", "why_tests_cant": "Algebraic laws over all data.", "anchors": ["droplets/sample.py: sample_center_of_mass"]}
{"id": "C41", "title": "Inertial energy", "statement": "sample_inertial_energy is M(U^2+V^2)/2 per bin, non-negative for non-negative masses and zero iff the bin has no mass or no flow.", "quantifier": "every data set", "why_tests_cant": "All values.", "anchors": ["droplets/sample.py: sample_inertial_energy"]}
{"id": "C42", "title": "Viscous dissipation is non-negative and frame independent", "statement": "sample_viscous_dissipation without weights is >= 0 for viscosity >= 0, unchanged when a constant velocity is added, scales with the square of the velocity, and is 0 for rigid motion (translation and rotation).", "quantifier": "every regular grid with at least 3x3 bins, any velocity field", "why_tests_cant": "All velocity fields and grids.", "anchors": ["droplets/sample.py: sample_viscous_dissipation"]}
{"id": "C43", "title": "Viscous dissipation is exact for low-order flow", "statement": "For velocity fields that are polynomials of degree at most 2 in each coordinate direction, the finite-difference gradients, including those at the borders, equal the true derivatives, and each value is assigned to the bin it belongs to after the in-place sort.", "quantifier": "every grid spacing, shape and coefficients", "why_tests_cant": "All coefficients and positions incl. edges.", "anchors": ["droplets/sample.py: sample_viscous_dissipation"]}
{"id": "C44", "title": "Flow angle", "statement": "sample_flow_angle returns degrees in (-180, 180], unchanged under positive scaling of the flow; the mean angle is the angle of the (weighted) summed flow and is independent of bin order.", "quantifier": "every velocity field", "why_tests_cant": "All directions incl. the branch cut.", "anchors": ["droplets/sample.py: sample_flow_angle"]}
{"id": "C45", "title": "Angular sampling assigns bins to their direction", "statement": "sample_per_angle_from puts each bin, seen from the origin, in the angular interval [angle, angle+size) containing its direction.", "quantifier": "every bin position and interval size", "why_tests_cant": "Boundary directions.", "anchors": ["droplets/sample.py: sample_per_angle_from"]}
{"id": "C46", "title": "Angular sampling uses the full circle", "statement": "By default the data of every direction is sampled.", "quantifier": "every bin position", "why_tests_cant": "Directions in the last interval.", "anchors": ["droplets/sample.py: sample_per_angle_from"]}
{"id": "C47", "title": "gmx_flow_1 round trip", "statement": "Writing a map in gmx_flow_1 format and reading it back returns the same shape, spacing and origin to the 6 decimals written and, for every bin with M != 0, its N, T, M, U, V (as single precision); bins with M = 0 come back as all zero; bin centres are regenerated on the grid.", "quantifier": "every map whose rows form the x-major grid of its info, every shape and content", "why_tests_cant": "Byte-level round trip over all contents.", "anchors": ["strata/dataformats/gmx_flow_version_1/write.py: write", "strata/dataformats/gmx_flow_version_1/read.py: read_data, read_values"]}
{"id": "C48", "title": "gmx_flow_1 header decoding for any file size", "statement": "The reader continues at the byte directly after the NUL that ends the header.", "quantifier": "every header length and file size", "why_tests_cant": "Depends on file size relative to the 1024-byte read chunk; tests use large maps.", "anchors": ["strata/dataformats/gmx_flow_version_1/read.py: read_header"]}
{"id": "C49", "title": "Truncated gmx_flow_1 files are detected", "statement": "Reading a file cut off at any byte raises an error rather than returning wrong data.", "quantifier": "every crash point of the writer / every truncation length", "why_tests_cant": "Every truncation point.", "anchors": ["strata/dataformats/gmx_flow_version_1/read.py: read_values"]}
{"id": "C50", "title": "simple binary round trip", "statement": "Writing X, Y, N, T, M, U, V in the simple binary format and reading it returns the same single-precision values with coordinates to 5 decimals, sorted by X then Y, for every regular map; fields never get interleaved wrongly.", "quantifier": "every regular map in any order", "why_tests_cant": "All contents and orders.", "anchors": ["strata/dataformats/simple/write.py: write", "strata/dataformats/simple/read.py: read_binary_simple, read_from_files"]}
{"id": "C51", "title": "simple text files and binary detection", "statement": "A file is read as text iff its bytes decode as UTF-8; the reader's fields are the columns of the file.", "quantifier": "every byte sequence", "why_tests_cant": "Any content; some binary files are valid UTF-8.", "anchors": ["strata/dataformats/simple/read.py: is_binary"]}
{"id": "C52", "title": "Shape and spacing of simple files are recovered", "statement": "calc_information on a full regular grid returns its shape, spacing, origin and number of bins, for any order of the bins.", "quantifier": "every regular grid with spacing above the tolerance and any permutation", "why_tests_cant": "All shapes, incl. single-column and single-row grids.", "anchors": ["strata/dataformats/simple/read.py: calc_information"]}
{"id": "C53", "title": "Format detection is the inverse of writing", "statement": "guess_read_module recognises every file written as gmx_flow_1 as such, and every simple binary file as simple.", "quantifier": "every map content", "why_tests_cant": "All file contents.", "anchors": ["strata/dataformats/read.py: guess_read_module, read_data_file", "strata/dataformats/write.py: write"]}
{"id": "C54", "title": "Averaging simple-format data", "statement": "average_data returns {} for no input, the mean of M and N, the mass-weighted mean of U, V and number-weighted mean of T (0 without weight), and raises ValueError when coordinates differ by more than the tolerance.", "quantifier": "every list of data sets", "why_tests_cant": "All list lengths and values.", "anchors": ["strata/dataformats/simple/average.py: average_data"]}
{"id": "C55", "title": "Combining simple-format bins conserves mass and momentum", "statement": "combine_bins sums M and N over each block, mass-weights U, V and number-weights T with 0 for empty blocks, so total mass, number, momentum and N*T are conserved over the covered bins.", "quantifier": "every regular data set and block size", "why_tests_cant": "All contents and sizes.", "anchors": ["strata/dataformats/simple/average.py: combine_bins"]}
{"id": "C56", "title": "Averaging a file series", "statement": "average() writes one output per complete group, whose content is the average of exactly the files of that group, independent of other groups; the same holds with quiet=True.", "quantifier": "every file series, group size and option", "why_tests_cant": "All series; option combinations.", "anchors": ["strata/average.py: average"]}
{"id": "C57", "title": "Cut and combine keep data and information consistent", "statement": "When average() combines or cuts bins, the information passed to the writer describes the data passed to the writer.", "quantifier": "every map and option", "why_tests_cant": "Option combinations.", "anchors": ["strata/average.py: average, cut_system"]}
{"id": "C58", "title": "Recentred maps share a grid", "statement": "After recentring, all maps contain only x positions common to all maps on the recentred grid, i.e. the intersection of their ranges.", "quantifier": "every list of maps and centres", "why_tests_cant": "All centre offsets.", "anchors": ["strata/average.py: recenter_maps"]}
{"id": "C59", "title": "Converting a file series", "statement": "convert() writes for every discovered frame n exactly the data and info of input n to output n, provided no output name is the name of a later input (always so when converting in place).", "quantifier": "every file series", "why_tests_cant": "All series.", "anchors": ["strata/convert.py: convert"]}
{"id": "C60", "title": "Sampling a series", "statement": "The row of results for frame k depends only on file k, whatever labels are sampled; sum/mean/std use exactly the bins at or above the cut-off.", "quantifier": "every map, cutoff, label list and order", "why_tests_cant": "Order of labels interacts with in-place sorting.", "anchors": ["strata/sample_average.py: sample_value, sample"]}
{"id": "C61", "title": "Slip length of a linear profile", "statement": "For columns whose velocity is exactly linear in height, the slip length is the mean distance below the floor at which the profiles extrapolate to zero.", "quantifier": "every linear profile and number of columns", "why_tests_cant": "All slopes and intercepts.", "anchors": ["strata/sample_average.py: sample_slip_length"]}
{"id": "C62", "title": "Spreading radius under periodic boundaries", "statement": "Whatever the history of edge positions with steps below half a box length and with at most one edge crossing the boundary per step, the collected edges equal the true unwrapped edges up to one fixed multiple of the box length, and the radius equals half the true width.", "quantifier": "every history of edge positions of any length", "why_tests_cant": "Unbounded histories with arbitrary crossings.", "anchors": ["strata/spreading/collect.py: collect"]}
{"id": "C63", "title": "Both edges crossing in one step", "statement": "When both edges cross the boundary in the same direction in one step, the tracked edges still equal the true ones.", "quantifier": "every history", "why_tests_cant": "Rare event in simulations; tests do not contain it.", "anchors": ["strata/spreading/collect.py: collect"]}
{"id": "C64", "title": "Spreading output rows are aligned with frames", "statement": "Row n of the output belongs to the n-th frame with a droplet and has time t0 + n*dt; frames without droplet produce no row and do not influence the edges of others; the time of a row is the time since impact of its frame.", "quantifier": "every sequence of frames with and without droplet", "why_tests_cant": "All gap patterns.", "anchors": ["strata/spreading/collect.py: collect"]}
{"id": "C65", "title": "The impact header is written for every output file", "statement": "Each spreading output file begins with the impact time found in its own series.", "quantifier": "every sequence of collect calls in one process", "why_tests_cant": "State persists across calls.", "anchors": ["strata/spreading/collect.py: write_spreading", "strata/utils.py: static_variable"]}
{"id": "C66", "title": "Synchronised spreading curves", "statement": "After synchronising at a radius, all curves have the same time at the point closest to that radius and each curve is rigidly shifted (differences in time and all radii unchanged).", "quantifier": "every set of curves and sync radius", "why_tests_cant": "All curves.", "anchors": ["strata/spreading/view.py: sync_time_at_radius"]}
{"id": "C67", "title": "Interface heights are put in the right row", "statement": "Transferring an interface to the common height array stores each point in the row of its own height and keeps the rest unset; out-of-range heights are not silently misplaced.", "quantifier": "every set of heights", "why_tests_cant": "All heights incl. boundaries and rounding.", "anchors": ["strata/interface/collect.py: get_yindex_for_value, transfer_values"]}
{"id": "C68", "title": "Interface length and area", "statement": "The interface length is at least the end-to-end distance and invariant under translation; the area is translation invariant and non-negative for ordered edges.", "quantifier": "every interface polyline", "why_tests_cant": "All polylines.", "anchors": ["strata/interface/sample.py: calc_length, calc_area"]}
{"id": "C69", "title": "Fused contact line edges", "statement": "After fusing, the left cells end half a bin left of x = 0 and the right cells start half a bin to the right, so no two bins of different sides coincide and relative positions on each side are preserved.", "quantifier": "every pair of cell sets and spacing", "why_tests_cant": "All cell sets.", "anchors": ["strata/contact_line_analysis.py: fuse_edges"]}
{"id": "C70", "title": "Snapping to the grid", "statement": "get_coord_on_grid returns a bin centre (k+1/2)*dx at distance at most dx/2 from the input and is idempotent.", "quantifier": "every coordinate and positive spacing", "why_tests_cant": "All coordinates incl. negative and boundaries.", "anchors": ["strata/contact_line_analysis.py: get_coord_on_grid"]}
{"id": "C71", "title": "Evaporation and density gradients use the right axes", "statement": "add_density_gradient / add_evaporation differentiate along x with the x spacing and along y with the y spacing.", "quantifier": "every map and spacing", "why_tests_cant": "Only visible for non-square bins.", "anchors": ["strata/view_flowmap.py: add_density_gradient, add_evaporation"]}
{"id": "C72", "title": "Quiver selection", "statement": "get_quiver_data returns an arrow, with its position, flow and colour weight, for exactly the bins that have any flow and are within the limits and the cutoff.", "quantifier": "every map", "why_tests_cant": "Bins with flow along one axis only.", "anchors": ["strata/view_flowmap.py: get_quiver_data"]}
{"id": "C73", "title": "Streamline region", "statement": "get_streamline_data returns the grid of exactly the bins within the requested limits: their positions, and every field with the value of each bin at its position.", "quantifier": "every map, row order, spacing and limit, including 0", "why_tests_cant": "Limit value 0 is special.", "anchors": ["strata/view_flowmap.py: get_streamline_data"]}
{"id": "C74", "title": "Optional numeric command line values", "statement": "The OptInt/OptFloat parameters map 'none' in any letter case to no value and every other text to exactly the number it denotes or to an error; an absent limit becomes the unbounded one with the right sign.", "quantifier": "every text", "why_tests_cant": "All texts.", "anchors": ["strata/strata.py: OptIntParamType, OptFloatParamType, set_none_to_inf"]}
{"id": "C75", "title": "Scaling of spreading curves", "statement": "combine_spreading_data divides every time by tau and every radius by R (a common factor or one per curve), keeping the order of curves and points; scaling comes before synchronisation; factor lists that do not match the number of curves raise TypeError.", "quantifier": "every list of curves and non-zero factors", "why_tests_cant": "All curves and factors.", "anchors": ["strata/spreading/view.py: combine_spreading_data, scale_spreading_data"]}
{"id": "C76", "title": "Fit range of spreading data", "statement": "get_inds_in_limits selects exactly the points with time in the closed interval (an absent limit not restricting); if that selects nothing, all points are selected, so a fit is never made on nothing.", "quantifier": "every series and limits", "why_tests_cant": "All series and limits.", "anchors": ["strata/spreading/fit.py: get_inds_in_limits"]}
{"id": "C77", "title": "Combined bins lie in the middle of the bins they combine", "statement": "After combine_bins every bin's coordinates are the mean of the coordinates of the bins combined into it, whichever file format the map was read from.", "quantifier": "every regular map of either format and every pair of positive factors", "why_tests_cant": "All maps, formats and factors.", "anchors": ["strata/dataformats/simple/average.py: combine_bins", "strata/dataformats/gmx_flow_version_1/read.py: read_data", "strata/dataformats/simple/read.py: read_data"]}
{"id": "C78", "title": "Stored values are accurate to single precision", "statement": "A value stored in a gmx_flow_1 or simple binary file and read back is a nearest single precision number: the relative error is at most 2^-24 in the normal range, values with at most 24 significant bits are unchanged, and writing what was read changes nothing.", "quantifier": "every finite value in the range of single precision", "why_tests_cant": "Over four billion bit patterns and all values between them.", "anchors": ["strata/dataformats/gmx_flow_version_1/write.py: write_data", "strata/dataformats/gmx_flow_version_1/read.py: read_values", "strata/dataformats/simple/write.py: write_data"]}
{"id": "C79", "title": "Groups and times of contact line averages", "statement": "Contact line data is averaged over consecutive complete blocks of the requested number of files, or, with rolling, over every run of that many files; the time of a group is that of the file in its middle.", "quantifier": "every list of files and group size", "why_tests_cant": "All lengths and group sizes.", "anchors": ["strata/contact_line_analysis.py: get_grouped_data, sample_contact_line_edges"]}
{"id": "C80", "title": "Contact line extraction and sampling produce output", "statement": "sample_contact_line_edges returns a sample per label and group, and extract_contact_line_bins writes one file per group.", "quantifier": "every series with at least one complete group and one label", "why_tests_cant": "Must hold for all data.", "anchors": ["strata/contact_line_analysis.py: sample_contact_line_edges, extract_contact_line_bins, get_averaged_contact_line_edges"]}
{"id": "C81", "title": "Averaged contact line edges are put back on the grid", "statement": "After averaging, each edge is moved rigidly so that its origin is a bin centre at most half a bin from its mean original position or, when recentring, from minus or plus half the mean distance of the edges.", "quantifier": "every pair of edges, positions and spacing", "why_tests_cant": "All positions.", "anchors": ["strata/contact_line_analysis.py: adjust_coordinates, get_coord_on_grid"]}
{"id": "C82", "title": "Shape of extracted contact line cells", "statement": "The shape recorded for extracted cells is their number of columns and of layers.", "quantifier": "every rectangular set of cells and spacing", "why_tests_cant": "All shapes and spacings.", "anchors": ["strata/contact_line_analysis.py: add_adjusted_flow, get_cut_shape"]}
{"id": "C83", "title": "Positions of bins survive writing", "statement": "A map that average() or convert() writes in the default format is read back with every bin at the position it had in the data handed to the writer.", "quantifier": "every map on a regular grid and every information that describes it", "why_tests_cant": "All origins and spacings; both meanings of the origin.", "anchors": ["strata/average.py: average, recenter_maps", "strata/dataformats/gmx_flow_version_1/write.py: write_data", "strata/dataformats/simple/read.py: calc_information"]}
{"id": "C84", "title": "Interfaces are tracked through periodic boundaries", "statement": "When interfaces of a series are collected, the two edges of every height that is present in all maps follow the true edges up to one fixed number of box lengths, as long as the droplet fits into the box at that height, edges move less than half a box between maps and at most one of them crosses the boundary at a time; what happens at other heights, including heights appearing and disappearing, does not matter.", "quantifier": "every series of maps and every height", "why_tests_cant": "All histories of crossings at every height and of heights appearing and disappearing.", "anchors": ["strata/interface/collect.py: collect_interfaces, get_interface_coordinates, update_interface_with_pbc_info, fill_pbc_info_for_empty_y_values"]}
{"id": "C85", "title": "Shape of interface files", "statement": "Every interface file goes up along the left edge from height 0 and down along the right edge through the same heights, at least two of them; recentring only moves the interface along x: to its contact line midpoint ('zero'), or to its centre of mass ('com').", "quantifier": "every series of maps and every option of the search and of recentring", "why_tests_cant": "All maps and histories.", "anchors": ["strata/interface/collect.py: collect_interfaces, get_interface_coordinates, create_interface_array"]}
{"id": "C86", "title": "Measured contact angles", "statement": "The contact angle measured at a height is the inclination, seen from the liquid, of the line from the lowest point of the edge to the point of the edge closest to that height over it; it lies between 0 and 180 degrees, does not depend on the position of the droplet, is the same for mirrored edges and exact for straight ones.", "quantifier": "every edge and height", "why_tests_cant": "All edges and heights.", "anchors": ["strata/interface/angle.py: measure_angle, read_interface_file"]}
{"id": "C87", "title": "Contact angle of a circular cap", "statement": "For a circular cap on a substrate at height 0 the fitted contact angle is the contact angle of the cap.", "quantifier": "every radius and angle strictly between 0 and 180 degrees", "why_tests_cant": "All caps.", "anchors": ["strata/interface/angle.py: fit_angle_from_segment"]}
{"id": "C88", "title": "Times of sampled interfaces", "statement": "Samples and contact angles of a series of interface files come with the times of their own files: number of the file times delta_t, also if files are skipped.", "quantifier": "every series of files", "why_tests_cant": "All series and positions of bad files.", "anchors": ["strata/interface/sample.py: sample_interfaces", "strata/interface/angle.py: interface_contact_angle"]}
{"id": "C89", "title": "Averaged interfaces", "statement": "The average of a group of interfaces has exactly the heights all of them have and at each of these the mean left and right edge; one interface is its own average.", "quantifier": "every group of interfaces with ascending heights", "why_tests_cant": "All groups, also with different heights.", "anchors": ["strata/interface/view.py: average_interfaces, stitch_edge_series"]}
{"id": "C90", "title": "Averaged interfaces can be saved", "statement": "view_interfaces returns the average of every group and, with an output path, writes it.", "quantifier": "every series of groups", "why_tests_cant": "Must hold for all data.", "anchors": ["strata/interface/view.py: view_interfaces", "strata/interface/collect.py: write_interface_data"]}
{"id": "C91", "title": "The contact line used for spreading", "statement": "The edges from which the spreading radius is computed are those of the lowest wetted layer or, with a floor, of the lowest layer above the floor, and there are none exactly if that layer has no liquid bins.", "quantifier": "every map, floor and cut-off", "why_tests_cant": "All maps and floors.", "anchors": ["strata/spreading/collect.py: get_spreading_edges"]}
{"id": "C92", "title": "Spreading curves from maps", "statement": "From the maps of a series to the spreading curve: the radii are half the true width of the contact line and the edges follow the true ones up to one fixed number of box lengths, as long as the droplet fits into the box, moves by less than half a box between maps and at most one edge crosses the boundary at a time; maps without droplet contribute nothing.", "quantifier": "every series of maps", "why_tests_cant": "All histories of a droplet in a periodic box.", "anchors": ["strata/spreading/collect.py: collect, get_spreading_edges, check_and_update_periodic_info"]}
{"id": "C93", "title": "Absolute and radial flow fields", "statement": "add_absolute_flow adds the magnitude of the flow of each bin; add_radial_flow adds the velocity around the given point, positive clockwise: never more than the magnitude, zero for motion along the line to the point, and minus the angular velocity times the distance for a rigid rotation. An existing field of that name is refused.", "quantifier": "every map, point, and bin away from the point", "why_tests_cant": "All positions in all quadrants and all velocities.", "anchors": ["strata/view_flowmap.py: add_absolute_flow, add_radial_flow, view_flowfields"]}
{"id": "C94", "title": "Every map of a series is drawn", "statement": "view_flowmap_2d draws every file of a series as if it was the only one, with the quantity asked for, up to the first file that cannot be drawn.", "quantifier": "every series of maps, quantity and type of map", "why_tests_cant": "All series lengths and quantities.", "anchors": ["strata/view_flowmap.py: view_flowmap_2d"]}
{"id": "C95", "title": "Height maps show the bins", "statement": "A height map has one cell per bin, and the cell in column i and row j shows the value of the bin at that place of the grid, whatever the order of the bins, or nothing if it is outside the limits or removed by the cutoff.", "quantifier": "every full grid, order of bins, quantity, limits and cutoff", "why_tests_cant": "All grid sizes, orders and values; cell boundaries fall between grid positions only by arithmetic.", "anchors": ["strata/view_flowmap.py: view_flowmap_2d, height"]}
{"id": "C96", "title": "Contour maps are drawn from the grid", "statement": "A contour map is drawn from arrays in which neighbouring entries are neighbouring bins and each entry has the value of the bin at its position, moved to the nearest value limit.", "quantifier": "every full grid, quantity, limits and cutoff", "why_tests_cant": "All grid sizes, shapes and values.", "anchors": ["strata/view_flowmap.py: view_flowmap_2d, contour"]}
{"id": "C97", "title": "Saved spreading curves are read back", "statement": "The file written by spreading collect is read by spreading view and fit as one series: the saved times and radii, in order, with three decimals.", "quantifier": "every series of maps, options and file name without line breaks", "why_tests_cant": "All numbers of points and all values, through decimal formatting and parsing.", "anchors": ["strata/spreading/collect.py: write_header, write_spreading, output_impact_time", "strata/spreading/view.py: read_spreading_data"]}
{"id": "C98", "title": "Combined and fitted series are read back", "statement": "The file written by spreading view or fit is read back as the same series in the same order, numbered from one, with the values as printed.", "quantifier": "every list of series, name and way of printing numbers", "why_tests_cant": "All numbers and lengths of series.", "anchors": ["strata/spreading/view.py: write_spreading_data, read_spreading_data", "strata/spreading/fit.py: write_fitting_data"]}
{"id": "C99", "title": "Power law fits are optimal", "statement": "The fitted (a, k) of a series make r = a*t^k the power law closest to the points at positive times in the fit limits on a logarithmic scale: a curve that is a power law is found exactly, other units of time and radius change a accordingly and not k, and the order of points does not matter.", "quantifier": "every series and limits with at least two positive times, of positive radius", "why_tests_cant": "A statement about all real parameters and all data.", "anchors": ["strata/spreading/fit.py: get_fitting_parameters, get_inds_in_limits"]}
{"id": "C100", "title": "Every series is fitted and drawn", "statement": "fit_spreading_data returns one pair of parameters per series in order and saves one curve per series, with the radius a*t^k at the times of the series in the output limits.", "quantifier": "every list of series, limits and output limits", "why_tests_cant": "All numbers of series and points.", "anchors": ["strata/spreading/fit.py: fit_spreading_data, get_fitted_data, write_fitting_data"]}
{"id": "C101", "title": "Spreading figures are drawn, saved and shown as asked", "statement": "spreading view and fit write the data if a path is given, save the figure if a path is given and show it if asked, with every option being optional.", "quantifier": "every data and combination of options", "why_tests_cant": "All combinations.", "anchors": ["strata/spreading/view.py: view_spreading", "strata/spreading/fit.py: fit_spreading_data", "strata/utils.py: decorate_graph"]}
{"id": "C102", "title": "The legend shows the fitted parameters", "statement": "The label of a fitted curve in the legend is the text of its parameters a and k.", "quantifier": "every name of a series and parameters", "why_tests_cant": "All names.", "anchors": ["strata/spreading/fit.py: plot_fitting_data, get_fitted_data"]}
{"id": "C103", "title": "Combined contact line edges", "statement": "Averaging the flow of the left and right contact line edges gives one map on a full grid: it has every bin of both edges, a bin of one edge keeps the values of that edge, and a bin of both has their mean, weighted by M for U and V and by N for T, with positions moved by half a bin.", "quantifier": "every pair of contact line maps on one lattice and every label", "why_tests_cant": "All sets of bins and values.", "anchors": ["strata/contact_line_analysis.py: combine_flow_data"]}
{"id": "C104", "title": "Averaged contact line edges", "statement": "Averaging a contact line edge over a group of maps is done relative to the edge's inner corner in each map: the bin at a given distance from the corner has the mean of the values at this distance from the corner of each map (none outside of the extracted cells), weighted by M for U and V and by N for T; every cell of every map has its bin, the corner is at the origin and the mean position of the corners is kept for putting the edge back.", "quantifier": "every group of maps, every extracted box, both edges and every label", "why_tests_cant": "All maps, positions and group sizes.", "anchors": ["strata/contact_line_analysis.py: get_averaged_contact_line_edges, add_adjusted_flow, average_data", "droplets/contact_line.py: get_contact_line_cells, adjust_cell_coordinates"]}
{"id": "C105", "title": "Maps of contact line extraction", "statement": "The map made from a group by contact line extraction consists of the two averaged edges: without fusing, each edge has its corner at the mean corner position (recentred: half the mean distance of the corners left and right of 0), rounded down to a multiple of the spacing; fused, the corners are in neighbouring columns and no bin belongs to both edges. Bins of one edge keep all its values, and every bin of both edges is in the map.", "quantifier": "every group of maps, both settings of recentring and fusing, and every bin and label", "why_tests_cant": "All maps, positions and group sizes.", "anchors": ["strata/contact_line_analysis.py: extract_contact_line_bins, get_averaged_contact_line_edges, fuse_edges, combine_flow_data"]}
{"id": "C106", "title": "Collected interfaces are read back", "statement": "Interfaces collected from a series of maps are what interface sample, interface angle and interface view read: under the same numbers, in order, with coordinates rounded to three decimals, also for the interfaces completed before a failure.", "quantifier": "every series of maps, every pair of bases, extensions and number range, every earlier file system, every interface of at least two points", "why_tests_cant": "All maps, coordinates, numbers and file systems.", "anchors": ["strata/interface/collect.py: collect_interfaces, write_interface_data", "strata/interface/sample.py: sample_interfaces", "strata/interface/angle.py: read_interface_edges", "strata/utils.py: find_datamap_files, find_singles_to_singles"]}
{"id": "C107", "title": "The file of interface samples", "statement": "The file of interface sample reads as a table with one row per interface: the time i*delta_t and the area enclosed by the interface or its length, each printed to three decimals and in the order of the files; the file left behind by a call that fails has the rows before the failure.", "quantifier": "every list of interfaces, every delta_t and both variables", "why_tests_cant": "All interfaces and times; numbers of any size must not run together or be cut.", "anchors": ["strata/interface/sample.py: sample_interfaces, write_header"]}
{"id": "C108", "title": "The file of contact angles", "statement": "The file of interface angle reads as a table with one row per interface: time, then mean, left and right angle if a height is given, then the fitted angle if a fit is asked for, to three decimals, nan where there is no angle; the legend line names exactly these columns.", "quantifier": "every list of interfaces, every delta_t, height and choice of fit", "why_tests_cant": "All interfaces, including those with undefined angles.", "anchors": ["strata/interface/angle.py: interface_contact_angle, write_angle_data"]}
{"id": "C109", "title": "Headers record the options of the data", "statement": "The header of each saved file records the base path, the number range (with the defaults actually used) and the options with which the data was made: time difference, cut-offs, labels, averaging and recentring.", "quantifier": "every set of keyword options and every base path", "why_tests_cant": "All combinations of given and omitted options.", "anchors": ["strata/utils.py: pop_fileopts, write_module_header", "strata/interface/sample.py: write_header", "strata/interface/angle.py: write_angle_data", "strata/sample_average.py: write_header", "strata/contact_line_analysis.py: write_header", "strata/spreading/collect.py: write_header", "strata/interface/collect.py: write_interface_data"]}
{"id": "C110", "title": "Commands pass their options on", "statement": "Each command calls its function with exactly its own options by name: those given on the command line with their values, the others with the documented defaults; no last number means no bound, recentring 'none' or 'off' means none, --process sum asks for sums, --nooutput for no file, and nothing else is passed.", "quantifier": "every command and every set of options given on the command line", "why_tests_cant": "All combinations of options and values.", "anchors": ["strata/strata.py: average_cli, convert_cli, spreading_collect_cli, spreading_view_cli, interface_collect_cli, interface_view_cli, interface_sample_cli, interface_angle_cli, cl_extract_cli, cl_sample_cli, view_contour_cli, view_heightmap_cli, view_quiver_cli, sample_average_cli, set_none_to_inf"]}
{"id": "C111", "title": "Commands end as their functions do", "statement": "A command succeeds when its function does and fails with its error; spreading collect prints the rows with three decimals if asked to, spreading fit the parameters of each series with six decimals unless told not to; interface collect leaves the files its function leaves.", "quantifier": "every option and every behaviour of the function called", "why_tests_cant": "All results and failures of the function.", "anchors": ["strata/strata.py: spreading_collect_cli, spreading_fit_cli, interface_collect_cli"]}
{"id": "C112", "title": "Flow fields of a series are drawn one by one", "statement": "view_flowfields draws one figure per file in the order of the files, each as if its file was the only one; a map that cannot be drawn ends the drawing without an error and without the maps after it, and only a map whose colours cannot be calculated makes the call fail, with that error.", "quantifier": "every series of maps, every option, every behaviour of the drawing library", "why_tests_cant": "All series and failing positions.", "anchors": ["strata/view_flowmap.py: view_flowfields"]}
{"id": "C113", "title": "Arrows carry the colour of their own bin", "statement": "In view_flowfields every arrow shown has as colour the value of the chosen quantity in its own bin: the field of that name; its own length for 'flow'; the flow around the centre of mass for 'radial'; the mass weighted viscous dissipation for 'visc'; U dM/dx + V dM/dy for 'evaporation'; 1 without a colour. Colouring never changes which arrows are shown.", "quantifier": "every map, in any row order, every cutoff and limits", "why_tests_cant": "All maps and row orders; the added fields sort the data.", "anchors": ["strata/view_flowmap.py: view_flowfields, get_quiver_data, add_absolute_flow, add_radial_flow, add_viscous_dissipation, add_evaporation; droplets/sample.py: sample_center_of_mass, sample_viscous_dissipation"]}
{"id": "C114", "title": "Converted files keep positions and values", "statement": "convert writes, for every readable input file, an output file which read_data reads as a map with a bin at the same positions with the same values (up to the precision of the output format), one file per input file, in order.", "quantifier": "every list of files of both formats, every output format, every map on a regular grid", "why_tests_cant": "All files, sizes and pairs of formats.", "anchors": ["strata/convert.py: convert; strata/dataformats/read.py: read_data_file, read_from_files; strata/dataformats/gromacs/main.py: read_data, write_data; strata/dataformats/simple/main.py: read_data, write_data"]}
{"id": "C115", "title": "Averaging files, bytes to bytes", "statement": "average over groups of files writes one file per whole group, whose bytes read as a map on the smallest grid that contains all maps of its group, each value the mean (mass weighted for temperature and flow) of the values in the bytes of the files of the group.", "quantifier": "every list of files, every group size", "why_tests_cant": "All file contents and group sizes.", "anchors": ["strata/average.py: average; strata/dataformats/average.py: average_data; strata/dataformats/read.py: read_from_files"]}
{"id": "C116", "title": "Files are read in order, each on its own", "statement": "read_from_files gives one map per file in the order of the files; the map of a file depends only on the bytes of that file; the first file that cannot be read ends the reading with its error, after the maps of the files before it.", "quantifier": "every list of paths, every file system", "why_tests_cant": "All orders, contents and positions of unreadable files.", "anchors": ["strata/dataformats/read.py: read_from_files, read_data_file"]}
{"id": "C117", "title": "Interfaces of a series are viewed group by group", "statement": "view_interfaces returns one averaged interface per complete group that can be read, in order, leaves all files as they are unless asked to save, and saves the figure of every group under the number of the group, also if other groups are skipped; a figure that cannot be drawn ends the call with its error.", "quantifier": "every set of files, group size, range of numbers and behaviour of the drawing library", "why_tests_cant": "All contents and positions of unreadable files.", "anchors": ["strata/interface/view.py: view_interfaces, gen_figure_filenames, read_interface_files, read_interface_file, average_interfaces; strata/utils.py: find_groups_to_singles, gen_filenames"]}
{"id": "C118", "title": "Combined edges of interfaces", "statement": "In the two tables of combine_interfaces the entry of a height and an interface is the left (right) edge of that interface at that height, and NaN if the interface has no point there.", "quantifier": "every list of interfaces whose heights are distinct", "why_tests_cant": "All lists, also with different heights.", "anchors": ["strata/interface/view.py: combine_interfaces, all_coords_to_edges"]}
{"id": "C119", "title": "A range that is not a number finds nothing", "statement": "find_datamap_files with a first or last number that cannot be compared with a number (None, a string) yields no file and no group and does not raise; with numbers the search always ends on its own, with the files (groups) of C02 and C03.", "quantifier": "every directory, base, extension, pair of bounds and group size", "why_tests_cant": "All directories and bounds; termination cannot be tested.", "anchors": ["strata/utils.py: find_datamap_files, gen_filenames"]}
{"id": "C120", "title": "Group sizes below one change no file", "statement": "average() with a group size below one leaves every file as it is; a size of 0 raises an error (and does not end if it is rolling without a last number), a negative size finds no group.", "quantifier": "every file system, range, option and group size", "why_tests_cant": "All file systems and sizes; a run that does not end cannot be tested.", "anchors": ["strata/average.py: average; strata/utils.py: find_groups_to_singles, find_datamap_files"]}
{"id": "C121", "title": "A spreading curve collected from files", "statement": "spreading collect() reads the numbered files found in their order, up to the first one that cannot be read.  Also when it ends with that error, the output file is the header followed by the impact block and one line per point collected so far; the returned points are the same with and without an output file; a previous output is kept under a free backup name and no other file is changed; reading the output gives the times and radii of the points with three decimals.", "quantifier": "every file system, series of files of any content, set of options and number of points, with the output not among the input files", "why_tests_cant": "All file systems, series and positions of an unreadable file.", "anchors": ["strata/spreading/collect.py: collect, write_header, output_impact_time, write_spreading; strata/spreading/view.py: read_spreading_data"]}
{"id": "C122", "title": "The contact line of a map in a file", "statement": "For a data file with a map on a grid whose first column lies between 0 and one spacing, the edges used by spreading collect() are the ends of the longest stretch of liquid bins, in the box continued periodically, of the lowest layer with liquid bins or of the layer chosen by the floor; there are none exactly if no bin there is liquid, and in a uniform map without a given cut-off.  A bin is liquid if its mass, and that of enough bins of the periodic system within the radius, reaches the cut-off, which by default is the middle of the least and the greatest mass.", "quantifier": "every map on a grid of any size, masses, cut-off, radius below the box length, number of neighbours and floor", "why_tests_cant": "All masses on all grids.", "anchors": ["strata/spreading/collect.py: collect, get_spreading_edges; droplets/interface.py: get_interface; strata/dataformats/read.py: read_from_files"]}
{"id": "C123", "title": "Samples of a series in one output file", "statement": "sample_interfaces() and sample_average_files() read the numbered files found in their order and append a line to the output for every file sampled.  However the call ends, the output is the header followed by the lines of the files sampled so far; the values do not depend on whether there is an output; an old output is kept under a free backup name and no other file is changed.  For interfaces, files that cannot be sampled are left out with their time, a file that holds no interface ends the call, and the output is a table of times and samples with three decimals.", "quantifier": "every file system, series of files of any content, time step, header and position of a bad file, with the output not among the input files", "why_tests_cant": "All file systems and series.", "anchors": ["strata/interface/sample.py: sample_interfaces, write_header; strata/sample_average.py: sample_average_files, write_header; strata/utils.py: prepare_path"]}
{"id": "C124", "title": "Contact angles of a series on files", "statement": "interface_contact_angle() either succeeds for all files found, and then writes a table with one row per time, keeping an old output under a backup name and leaving all other files alone, or fails because one file is missing, holds no interface or has no angle, and then no file is written, moved or changed.", "quantifier": "every file system, series of files of any content, fit, height and time step", "why_tests_cant": "All file systems and series.", "anchors": ["strata/interface/angle.py: interface_contact_angle, write_angle_data, read_interface_file; strata/utils.py: prepare_path"]}
{"id": "C125", "title": "Which simple files keep the positions of their bins", "statement": "read_data returns every bin of a simple-format file at the position given in the file, to five decimals, exactly if the file lists a grid of at least 2 x 2 bins column after column; any other file (missing bins, another order) is read without an error, with positions of a grid whose number of columns is the number of bins in the lowest row, and there are fewer positions than values unless that number divides the number of bins.", "quantifier": "every text file with at least two bins and every binary file that is not text, in any order and with any bins missing", "why_tests_cant": "All sets and orders of bins.", "anchors": ["strata/dataformats/simple/read.py: read_data, calc_information, calc_shape, calc_spacing"]}
{"id": "C126", "title": "Rounding errors of averages stay small", "statement": "average_data and the fields summed and averaged by combine_bins, computed with floating-point operations of relative error u and additions in any order, differ from the exact averages by at most 2ku of the value for masses and numbers (k maps, or bins in a block) and by at most 3(k+1)u times the largest averaged value for velocities and temperatures, for all weights that are not negative; where all weights are zero the result is exactly zero.", "quantifier": "every rounding with a relative error of at most u, every order of additions, all maps and weights and every number of maps with (k+1)u <= 1/8 (2^50-1 maps in double precision)", "why_tests_cant": "All values and orders of additions; a test compares a few averages with a tolerance chosen by hand.", "anchors": ["strata/dataformats/simple/average.py: average_data, combine_bins"]}
{"id": "C127", "title": "Interrupted series leave good files only, and can be run again", "statement": "If average or convert is killed at any time while it works through a series, all outputs before the one being written are complete, all after it are as they were, and the one being written is as it was, missing, or a beginning of the new file; no other file is changed and no content is lost. If no output has the name of an input, calling the function again gives exactly the outputs of an undisturbed run.", "quantifier": "all series, options, file systems and names; every output during which the process ends, every elementary step and every number of bytes of its write; every way of writing a file in pieces", "why_tests_cant": "Every crash point of every run; tests run to the end.", "anchors": ["strata/average.py: average", "strata/convert.py: convert", "strata/utils.py: prepare_path"]}
{"id": "C128", "title": "Averages can be taken in stages and in any order", "statement": "If maps on one grid are split into groups of equal size, averaging the groups and then the averages gives exactly the average of all maps; the order of the maps makes no difference; the average of one map is that map, with temperatures 0 where it has no mass and flow 0 where it has no number.", "quantifier": "all numbers and sizes of groups, all grids and values with weights at least 0", "why_tests_cant": "A law over all series, groupings and orders; a test averages two maps.", "anchors": ["strata/dataformats/simple/average.py: average_data"]}
{"id": "C129", "title": "Bins can be combined in stages, before or after averaging", "statement": "Combining a x b bins of a map and then c x e of the result gives exactly the map and information of combining ac x be bins at once, also for grids that are not divided evenly; combining the bins of an average gives the same values in every bin as averaging the maps with combined bins, and whenever the average of the maps exists the average of the combined maps exists.", "quantifier": "all grids, values with weights at least 0, all block sizes from 1, all numbers of maps", "why_tests_cant": "A law over all grids and block sizes; a test combines one grid once.", "anchors": ["strata/dataformats/simple/average.py: combine_bins, average_data"]}
{"id": "C130", "title": "Recentred maps keep their shape in double precision", "statement": "When maps on one grid are recentred with rounded arithmetic, each keeps exactly its bins in the columns common to all, in order and with all other fields unchanged, at positions that depend only on the column relative to the centre; and the shape in the returned information is that of the maps.", "quantifier": "all grids, bin contents, numbers of maps and centres; all roundings with a small relative error, all orders of addition", "why_tests_cant": "Whether a truncated quotient falls just below a whole number depends on the last binary digit of the positions; a test uses one grid, and the project's tests use grids of whole numbers.", "anchors": ["strata/average.py: recenter_maps"]}
{"id": "C131", "title": "The combined grid holds every map in double precision", "statement": "With rounded arithmetic, the grid for the average of maps on one lattice reaches from the first to the last position of any map, every map is put at its own place in it, and no map reaches over its end.", "quantifier": "all lattices, all numbers and sizes of maps, positions off the lattice by up to an eighth of the spacing, all roundings with a small relative error", "why_tests_cant": "Holds for all positions of doubles near a lattice; a test has a few exact positions.", "anchors": ["droplets/average.py: get_combined_grid, transfer_data"]}
{"id": "C132", "title": "Interface layers keep their values between frames in double precision", "statement": "When the layers of an interface in the next frame are a part of those before, on the same grid, each layer keeps the value tracked for it, with rounded arithmetic as in exact arithmetic.", "quantifier": "all grids of layers, all roundings with a small relative error", "why_tests_cant": "The index of a layer is a truncated quotient of rounded numbers; it is wrong for about one grid in a hundred among those that cross zero.", "anchors": ["strata/interface/collect.py: get_yindex_data, get_yindex_for_value, transfer_values"]}
{"id": "C133", "title": "Output numbers are right in double precision", "statement": "The number of the first output file, computed by a division in floating point, and those counted up from it are exactly the least whole number not below begin/group and the numbers following it, so that groups are paired with the same output names as in exact arithmetic.", "quantifier": "all first file numbers below 2^53 in size, all group sizes, all numbers of groups", "why_tests_cant": "A quotient rounded up past a whole number would shift every output file; only a proof covers all pairs of begin and group.", "anchors": ["strata/utils.py: find_groups_to_singles, gen_filenames", "strata/interface/view.py: view_interfaces"]}
{"id": "C134", "title": "Rounding errors of averaged flow maps are bounded", "statement": "With rounded arithmetic and additions in any order, average_data returns the same fields and coordinates as in exact arithmetic; plain means have an error of at most 2ku times the mean absolute value, weighted means of at most 3(k+4)u times the largest value, and are exactly 0 without weight, for k maps and relative rounding errors of at most u.", "quantifier": "all numbers of maps, bins, fields and weights that are not negative, all roundings, all orders of addition", "why_tests_cant": "The total weight is recovered from a rounded mean; whether that can turn a positive weight into 0 or amplify errors is a question about all floating point values.", "anchors": ["droplets/average.py: average_data"]}
{"id": "C135", "title": "Sampled angles end at the given limit in double precision", "statement": "The angles sampled are amin, amin + size, ... up to the last one below amax + size; with rounded arithmetic there are as many as in exact arithmetic.", "quantifier": "all limits and sizes of the angular intervals, all roundings with a small relative error", "why_tests_cant": "The number of angles is a quotient rounded up; the last digit of the limits decides whether there is one too many. The project's tests use whole degrees.", "anchors": ["droplets/sample.py: sample_per_angle_from"]}
{"id": "C136", "title": "Contact line edges are put in their own bin in double precision", "statement": "An edge is put at the centre of the bin of the grid that holds its position, and so is moved by at most half a bin, with rounded arithmetic as in exact arithmetic.", "quantifier": "all positions and spacings, all roundings with a small relative error", "why_tests_cant": "The index is a quotient rounded down; on the ends of bins the last digit decides.", "anchors": ["strata/contact_line_analysis.py: get_averaged_contact_line_edges (get_coord_on_grid)"]}
{"id": "C137", "title": "Recentring uses the contact line of the spreading analysis", "statement": "`average` with `recenter` left or right moves each map to the contact line that `spreading collect` finds for it with the same cut-off, radius, number of bins and floor; the command's help says the method is the same.", "quantifier": "all maps on a grid, all options", "why_tests_cant": "The two commands call the same function with different hidden options, and maps in the tests have one drop in the middle of the box, for which the two searches agree.", "anchors": ["strata/average.py: average", "strata/spreading/collect.py: get_spreading_edges, collect", "strata/strata.py: average_cli"]}
{"id": "C138", "title": "Sampling runs that are interrupted", "statement": "A run of `spreading collect`, `sample_interfaces` or `sample_average_files` with an output file may be killed at any time. The output is then as before, missing, or the first bytes of what the complete run writes; an old output is kept under its backup name; no other file is changed. The same call in a new process gives the values and the file of a run that was never interrupted.", "quantifier": "all file systems, series, options, readers, and all points of interruption, also in the middle of a write", "why_tests_cant": "Runs in tests are not killed, and there are arbitrarily many points at which they can be.", "anchors": ["strata/spreading/collect.py: collect, write_spreading_data, write_spreading_header", "strata/interface/sample.py: sample_interfaces", "strata/sample_average.py: sample_average_files", "strata/utils.py: prepare_path"]}
{"id": "C139", "title": "Spreading curves in double precision", "statement": "Spreading curves are computed with rounded numbers. For every droplet that C62 covers, the curve in double precision has the edges and radii of exact arithmetic up to rounding errors, and the accumulated times are right up to rounding errors.", "quantifier": "all droplet histories, boxes, numbers of boundary crossings and lengths of the series; any rounding with a relative error bound", "why_tests_cant": "A rounding error decides which side of the box an edge has crossed only for particular boxes, positions and numbers of crossings.", "anchors": ["strata/spreading/collect.py: collect, check_and_update_periodic_info, add_pbc_multipliers_to_edges"]}
{"id": "C140", "title": "The interface in double precision", "statement": "Distances between bins, the default radius and the default cut-off are computed with rounded numbers. For every map whose bins are clearly nearer or clearly farther than the search radius, the search from outside in on the rounded positions of a file returns exactly the bins that exact arithmetic gives; a bin is found as neighbour unless its distance equals the radius up to rounding errors.", "quantifier": "all maps, grids, radii and cut-offs; any rounding with a relative error bound", "why_tests_cant": "Whether rounding decides the membership of a neighbour depends on the spacing, the position and the radius; the tests use whole numbers.", "anchors": ["droplets/interface.py: get_interface, _cell_is_droplet, _get_indices_in_radius, get_radius"]}
{"id": "C141", "title": "Commands do to files what their options say", "statement": "For every combination of options, `strata average`, `strata convert` and `strata spreading collect` leave exactly the files, and print exactly the lines, that averaging, converting or collecting with the documented meaning of these options gives; an option that is not given has its documented default. One number for --combine is refused before any file is touched.", "quantifier": "all file systems, base names, options and their values", "why_tests_cant": "The options pass through several dictionaries, defaults and pops; tests call single functions and never a command.", "anchors": ["strata/strata.py: average_cli, convert_cli, spreading_collect_cli", "strata/average.py: average", "strata/convert.py: convert", "strata/spreading/collect.py: collect"]}
{"id": "C142", "title": "Interface and sampling commands do to files what their options say", "statement": "For every combination of options, `strata interface collect`, `interface sample`, `interface angle` and `sample` leave exactly the files that the library functions leave with the documented meaning of these options. Areas, lengths or contact angles taken after a collection are, row by row, those of the interfaces collected.", "quantifier": "all file systems, base names, options and their values", "why_tests_cant": "The commands are never run by the tests; an option may be dropped, renamed or overridden between the command line and the function that uses it.", "anchors": ["strata/strata.py: interface_collect_cli, interface_sample_cli, interface_angle_cli, sample_average_cli", "strata/interface/collect.py: collect_interfaces", "strata/interface/sample.py: sample_interfaces", "strata/interface/angle.py: interface_contact_angle", "strata/sample_average.py: sample_average_files"]}
{"id": "C143", "title": "Contact-line commands on files", "statement": "`strata contact_line collect` writes one map per complete group of files under the output name and leaves the input alone; `strata contact_line sample` with an output writes the header and one row of samples per complete group. Neither loses a file. (Only the last is true: collecting never writes anything and moves a file with the name of the first output away, even an input file; sampling leaves a header only.)", "quantifier": "all file systems, series, numbers of files per group, options and labels", "why_tests_cant": "The whole run must be followed from the options to the files for every file system and series; the tests never run these functions on files.", "anchors": ["strata/contact_line_analysis.py: extract_contact_line_bins, sample_contact_line_edges, get_averaged_contact_line_edges, get_grouped_data", "strata/strata.py: cl_extract_cli, cl_sample_cli", "strata/dataformats/write.py: write", "strata/utils.py: prepare_path"]}
{"id": "C144", "title": "Hand-made tables may be laid out in any way", "statement": "Flow maps in text form, tables of spreading radii and interfaces are read the same however their words are laid out: any blanks and tabs, empty lines, comments (in maps: after the line of names), a comment sign before the names, line ends with or without carriage return, last line ended or not.", "quantifier": "all tables (any number of rows, columns and words) and all layouts of them", "why_tests_cant": "Layouts are unbounded; the tests read a few files written by the tests themselves.", "anchors": ["strata/dataformats/simple/read.py: read_plainsimple, read_data", "strata/spreading/view.py: read_plain_file, read_file", "strata/interface/view.py: read_interfaces", "strata/interface/angle.py"]}
{"id": "C145", "title": "Headers of binary maps may be laid out in any way", "statement": "The header of a gmx_flow_1 file is understood whatever the order of its lines, repetitions, the case of its keys, other lines between them, blanks, tabs and line ends, and whatever its length: two files with the same values and data are read the same, and as the file the program itself would write; the grid read is the one of the header; a header without one of the five entries or with a negative shape is refused.", "quantifier": "all headers of any length with any values, all layouts, all data", "why_tests_cant": "Layouts and values are unbounded; the tests read headers in the order in which the program writes them.", "anchors": ["strata/dataformats/gmx_flow_version_1/read.py: read_header, read_data, read_values"]}
{"id": "C146", "title": "Sampled quantities in double precision", "statement": "Viscous dissipation, inertial energy and centre of mass are returned in floating point exactly when they are in exact arithmetic, for the same bins, in whatever order numpy adds; the energies and dissipations are never negative; the errors are at most 5000 u mu (F / h)^2 / w^2 (velocities up to F, bins of at least h, weight w), 5 u times the energy and 3 (n + 1) u times the largest coordinate (n bins); a uniform flow gets a dissipation of exactly 0 (false on the border of the map: rounding leaves tiny positive values there).", "quantifier": "all maps of any size, all velocities, weights, viscosities, all roundings with relative error u and all orders of additions", "why_tests_cant": "Rounding errors depend on all values; the tests compare a few maps with np.isclose or with values that are exact in binary.", "anchors": ["droplets/sample.py: sample_viscous_dissipation, sample_inertial_energy, sample_center_of_mass"]}
{"id": "C147", "title": "Interfaces do not depend on the units", "statement": "get_interface reports the same bins (and raises the same errors) and get_contact_angle the same angles when the map is written in other units: lengths multiplied by a common factor with cut-off radius, limits, box size, floor and height converted alike, the searched quantity by any increasing affine conversion (with the cut-off converted or left to its default), the other fields by any increasing conversions; the origin of y, and for the default search that of x, may move.", "quantifier": "every map, every option set, every choice of units", "why_tests_cant": "All maps and units: a hard coded length or tolerance would show only for some magnitudes.", "anchors": ["droplets/interface.py: get_interface, get_contact_angle, _cell_is_droplet, _get_indices_in_radius"]}
{"id": "C148", "title": "Stricter settings find no more liquid", "statement": "With a higher cut-off, a smaller radius, more required bins, narrower limits or less of the quantity in the bins, the default search reports no new layer, and the edges of every layer lie between those reported before; the search for the longest connected stretch reports no new layer and no longer stretch (which may lie elsewhere).", "quantifier": "every pair of maps with the same bins and every pair of settings", "why_tests_cant": "Relates two runs of the search for all maps and settings.", "anchors": ["droplets/interface.py: get_interface, _cell_is_droplet"]}
{"id": "C149", "title": "Reading Grace files", "statement": "read_spreading_data reads every data set of a Grace file: however the numbers are spaced and whatever settings stand before or among the sets, every column after the first becomes a curve of (time, value) points without the NaN ones, in the order of the file, numbered from one (false: files without @target lines, as Gromacs writes them, give no curve and no warning; a comment or an empty line within a set makes the whole file unreadable).", "quantifier": "every file of any number of sets, columns and rows, in any layout", "why_tests_cant": "All layouts of a text file; the tests read only files the program wrote.", "anchors": ["strata/spreading/view.py: read_spreading_data"]}
{"id": "C150", "title": "Interfaces do not depend on how the bins are stored", "statement": "The default search reports the same edges (as positions) and get_contact_angle the same angles in whatever order the bins are stored; the edges seen in a mirror are the mirrored edges; and with given cut-off and radius only the bins that reach the cut-off matter (adding or removing empty bins changes nothing).", "quantifier": "every map, every reordering of its bins and every option set", "why_tests_cant": "Relates two runs on all maps and all orders of their bins.", "anchors": ["droplets/interface.py: get_interface, get_contact_angle"]}
{"id": "C151", "title": "Saved figures have the size asked for", "statement": "A map figure saved with dims=(w, h) (documented as pixels) has w by h pixels (false: the dimensions are divided by 300 whatever the resolution, so the picture has dpi/300 times as many pixels; the command view contour always halves both).", "quantifier": "every width, height, resolution and set of other options", "why_tests_cant": "All sizes and resolutions; the value passed by the caller is removed from the options on the way.", "anchors": ["strata/view_flowmap.py: create_figure, height, contour, plot_quiver; strata/utils.py: decorate_graph; strata/strata.py: view_contour_cli"]}
{"id": "C152", "title": "The figures of a series are all saved", "statement": "view_flowmap_2d with save_fig leaves a picture of every map (false for more than one map: all figures are saved to the same path, one over the other).", "quantifier": "every number of maps and every option set", "why_tests_cant": "All lengths of series; tests draw one map.", "anchors": ["strata/view_flowmap.py: view_flowmap_2d; strata/utils.py: decorate_graph"]}
{"id": "C153", "title": "Figures are decorated as asked", "statement": "Every graph passes the options of the figure (title, labels, limits, scales, colour map and bar, legend, path, resolution) on as given or with the documented defaults, each once; the drawing function sees all other options and none of these; limits are set after the mode of the axes, the figure is saved when everything is in place, shown after saving and cleared last; a failed drawing is neither saved nor shown.", "quantifier": "every drawing function and every option set", "why_tests_cant": "All combinations of options.", "anchors": ["strata/utils.py: decorate_graph, pop_figure_kwargs"]}
{"id": "C154", "title": "Spreading curves in other units", "statement": "Collecting the spreading curve of a series of maps in other units of length, time and density, with the options in these units, gives the same curve in these units, row by row, and the same lines in the file (false for a given floor: the layer is chosen by whole units of the height difference, so it depends on the unit of length).", "quantifier": "every series of maps, every option set and all units (and positions of the origin)", "why_tests_cant": "All maps and units of measurement; a single unit is used by the tests.", "anchors": ["strata/spreading/collect.py: collect, get_spreading_edges, check_and_update_periodic_info; droplets/interface.py"]}
{"id": "C155", "title": "Averages in other units", "statement": "Averaging maps in other units (any positive factor for each field, any position of the origin) gives the average in these units, with its information (false for maps whose spacings differ: spacings are compared with an absolute tolerance, so that maps refused in nanometres are averaged in metres).", "quantifier": "every list of maps, all weights and all units", "why_tests_cant": "All maps and units of measurement.", "anchors": ["droplets/average.py: average_flow_data, get_combined_grid, transfer_data, average_data"]}
{"id": "C156", "title": "Sampled quantities in other units", "statement": "The centre of mass, the kinetic energy, the flow angle, the viscous dissipation and samples by direction of a map in other units are those of the map, in the units that follow from those of the fields: angles have none, the energy that of mass times flow squared, the dissipation that of viscosity times flow squared per length squared; weights may have any unit.", "quantifier": "every map, all units and options", "why_tests_cant": "All maps and units of measurement.", "anchors": ["droplets/sample.py: sample_per_angle_from, sample_center_of_mass, sample_inertial_energy, sample_flow_angle, sample_viscous_dissipation"]}
{"id": "C157", "title": "Selections and translations in other units", "statement": "Copying, selecting by limits, cutting, sorting and translating a map in other units (limits and shifts in these units) gives the result for the map, in these units, and the same calls fail; the size of the box has the units of the coordinates.", "quantifier": "every map, all limits, shifts and units", "why_tests_cant": "All maps and units of measurement.", "anchors": ["droplets/flow.py: FlowData.copy, FlowData.lims, FlowData.cut, FlowData.sort, FlowData.translate, FlowData.size"]}
{"id": "C158", "title": "Resampling in other units", "statement": "Combining or splitting the bins of a map in other units (limits in these units, weights in theirs) gives the result for the map, in these units, and the same calls fail.", "quantifier": "every map, all factors, weights, limits and units", "why_tests_cant": "All maps and units of measurement.", "anchors": ["droplets/resample.py: downsample_flow_data, supersample_flow_data"]}
{"id": "C159", "title": "Streamlines in double precision", "statement": "Streamlines of a map whose bins are stored in file order are drawn, every bin in its place, for every grid; the lines are as wide as the mass is large, at most 1.5 points; and there are places to start streamlines in every map.", "quantifier": "every map, spacing, number of bins, rounding and mask", "why_tests_cant": "Whether the shape comes out right depends on the rounding error of two quotients, for every origin, spacing and number of bins.", "anchors": ["strata/view_flowmap.py: get_streamline_data, plot_streamlines"]}
{"id": "C160", "title": "Maps seen in a mirror", "statement": "The interface of a map seen in a mirror is the interface seen in the mirror, and a drop seen in a mirror spreads alike: same times and radii, left and right edges exchanged, whatever boundaries it crosses.", "quantifier": "every map, search option, series of maps and history of boundary crossings", "why_tests_cant": "All maps and all histories of edges in a periodic box.", "anchors": ["droplets/interface.py: get_interface", "strata/spreading/collect.py: collect, check_and_update_periodic_info"]}
{"id": "C161", "title": "Results do not depend on how the bins are stored", "statement": "A map whose bins are stored in another order (row by row, column by column or not at all sorted) gives the same centre of mass, mean flow angle, samples per angle, dissipation, density gradient, evaporation, coarser, finer and averaged maps, and the same selections, energies, flow angles and arrows up to their order.", "quantifier": "every map, every order of its bins and all options", "why_tests_cant": "All permutations of all maps.", "anchors": ["droplets/sample.py: sample_center_of_mass, sample_flow_angle, sample_per_angle_from, sample_viscous_dissipation, sample_inertial_energy", "droplets/resample.py: downsample_flow_data, supersample_flow_data", "droplets/flow.py: lims, cut", "droplets/average.py: average_flow_data", "strata/view_flowmap.py: get_quiver_data, add_density_gradient, add_evaporation"]}
{"id": "C162", "title": "Fields of mirrored and turned maps", "statement": "A map seen in a mirror or with its axes exchanged (hence also a map turned by any number of right angles) has the same kinetic energy, dissipation and evaporation where its bins are seen, and the density gradient is the gradient seen alike.", "quantifier": "every map on a full grid (bins in any order, square or not), every mirror, viscosity and weight", "why_tests_cant": "All fields on all grids.", "anchors": ["droplets/sample.py: sample_viscous_dissipation, sample_inertial_energy", "strata/view_flowmap.py: add_density_gradient, add_evaporation"]}
{"id": "C163", "title": "Maps that are moved, turned or mirrored as a whole", "statement": "If all positions and flows of a map are turned through an angle, mirrored and displaced, the centre of mass moves along, the mean flow angle and the flow angles turn along, energies and speeds stay, the radial flow around the centre of mass stays (with the other sign in a mirror), and every arrow is drawn at its new place.", "quantifier": "every map, every rigid motion with rational coefficients and every order of the bins", "why_tests_cant": "A continuum of motions of all maps; rotations through odd angles are not found in tests.", "anchors": ["droplets/sample.py: sample_center_of_mass, sample_flow_angle, sample_inertial_energy", "strata/view_flowmap.py: add_absolute_flow, add_radial_flow, view_flowfields, get_quiver_data"]}
{"id": "C164", "title": "Commands that run at the same time", "statement": "Any number of average and convert commands (or other loops of that kind) that run at the same time and have different outputs end as if each had been alone, whatever the order of their steps: the same files with the same bytes and the same backups, no file that was there before is lost at any moment, also if some of the commands are killed, and the inputs may be shared.", "quantifier": "every set of commands, every file system, every interleaving of their steps (test, rename, open, write, make directory) and every moment at which one of them stops", "why_tests_cant": "Races need a certain interleaving, which a test cannot force; there are infinitely many schedules.", "anchors": ["strata/utils.py: prepare_path", "strata/average.py: average", "strata/convert.py: convert"]}
{"id": "C165", "title": "Simple maps that are cut short", "statement": "A file in the simple binary format of which only a first part is there (the command was killed, the disk was full, a copy was interrupted) is refused and not taken for a map.", "quantifier": "every map on a grid, every length of the part", "why_tests_cant": "A test cuts a few files at a few places; whether a part is accepted depends on the sizes of the map and the place of the cut.", "anchors": ["strata/dataformats/simple/read.py: read_data, read_binsimple", "strata/dataformats/simple/read.py: calc_information, calc_shape"]}
{"id": "C166", "title": "Outputs that are looked at while commands run", "statement": "Whoever looks at the output of an average or convert command while it runs, while others run, or after it was killed finds the file that was there before, no file, or the first part of the new file, and at the paths of backups only what was there before or the complete old file. A first part that is not the whole file is not taken for a map.", "quantifier": "every set of commands with outputs of their own, every file system, every interleaving of their steps, every moment, every output and backup", "why_tests_cant": "Watching a file needs a reader at a certain moment of a certain interleaving; a test sees finished commands.", "anchors": ["strata/utils.py: prepare_path", "strata/average.py: average", "strata/convert.py: convert", "strata/dataformats/simple/read.py: read_data"]}
{"id": "C167", "title": "Commands that collect rows at the same time", "statement": "Commands that sample or collect a series of files into an output (spreading collect, interface sample, sample_average_files) can run at the same time: whatever the interleaving of their steps, each ends as it would alone, with the same output and backups, whatever it does depends on nothing the others do, and whoever looks at an output meanwhile finds the old file, no file, or the first part of the new one.", "quantifier": "every set of such commands, every file system, every interleaving of their steps, every moment", "why_tests_cant": "The outcome depends on the interleaving of processes, which a test cannot choose.", "anchors": ["strata/spreading/collect.py: collect", "strata/interface/sample.py: sample_interfaces", "strata/sample_average.py: sample_average_files", "strata/utils.py: prepare_path"]}
{"id": "C168", "title": "Angular samples of maps that are moved or turned", "statement": "sample_per_angle_from follows the map: if all bins are displaced together with the origin the result is the same, and if the map is turned about any point, and the origin and the limits with it, the same values are reported at the turned angles, in whatever order the bins are stored.", "quantifier": "every map, every displacement and turn, every origin, every label and weight, all limits and interval sizes", "why_tests_cant": "A test compares two maps; that no direction is treated in a special way concerns all turns and all bins.", "anchors": ["droplets/sample.py: sample_per_angle_from"]}
{"id": "C169", "title": "Colours of flow maps in other units", "statement": "The fields by which flow maps are coloured have the units they should have: in other units of length, mass and flow the absolute and radial flow of all bins are multiplied by the unit of the flow, the density gradient by that of mass per length, the evaporation by that of flow times mass per length, and calls fail for the same maps.", "quantifier": "every map, every choice of units (positive factors, the same ones along x and y, any zero of the coordinates)", "why_tests_cant": "A test uses maps in one set of units; a constant or a mixed up axis shows only in others.", "anchors": ["strata/view_flowmap.py: add_absolute_flow", "strata/view_flowmap.py: add_radial_flow", "strata/view_flowmap.py: add_density_gradient", "strata/view_flowmap.py: add_evaporation"]}
{"id": "C170", "title": "Sampled series in other units", "statement": "sample_average_files on the same series of maps written in other units of length, flow, mass and time, with the limits, cutoff, floor and viscosity given in the new units, returns and writes the same rows: every mean and sum is multiplied by the unit of its quantity (energies by mass times flow squared, dissipation by viscosity times flow squared by length squared, slip lengths by length, fields by their own), every standard deviation likewise, flow angles are the same, times are multiplied by the unit of time; and it fails or stops at the same frame. (Means of the coordinates themselves are compared for an unmoved zero of that coordinate.)", "quantifier": "every series of maps with all fields, every choice of units (positive factors, the same ones along x and y and for both flows, any zero of the coordinates), every list of labels and all options", "why_tests_cant": "A test has one set of units; a constant left in a formula, a floor or cutoff compared before conversion or a selection that depends on rounding of units shows only in others.", "anchors": ["strata/sample_average.py: sample_average_files", "strata/sample_average.py: sample_value", "strata/sample_average.py: sample_slip_length"]}
{"id": "C171", "title": "Sums over parts of a map", "statement": "Sums sampled in two windows that meet add up: the sum over the left (lower) window plus that over the right (upper) one is the sum over both windows together plus that over the bins exactly at the shared border, which belong to both; without bins there, the parts add up exactly. This should hold for every sampled quantity and cutoff.", "quantifier": "every map with all fields and information, every pair of windows that meet along x or y, every label that can be summed, every cutoff", "why_tests_cant": "A test sums one window; that nothing is lost or counted twice between any two windows is a statement about all borders.", "anchors": ["strata/sample_average.py: sample_average_files", "strata/sample_average.py: sample_value", "droplets/flow.py: FlowData.cut"]}
{"id": "C172", "title": "Averages conserve totals and stay in range", "statement": "The total of every arithmetically averaged field of average_flow_data (mass, numbers) is the mean of the totals of the maps, and for every weighted field with weights that are not negative the total of field times weight (momentum, for flow weighted by mass) is the mean of those of the maps: nothing is lost or counted twice on the combined grid. No averaged value lies outside the range of the values of the maps at its position (0 outside a map), a weighted one not outside the range of the maps with a positive weight there.", "quantifier": "every non-empty list of maps with the same spacing and fields on one lattice, of any sizes and positions, every set of weights", "why_tests_cant": "Conservation concerns all overlaps of all maps; a test compares a few averaged values.", "anchors": ["droplets/average.py: average_flow_data", "droplets/average.py: transfer_data", "droplets/average.py: average_data"]}
{"id": "C173", "title": "What is known of a series does not change when the series goes on", "statement": "If more files of a series appear, or a later last file is asked for, while the files there are unchanged, then the files found, the groups of files (rolling or not), the rows of a spreading curve and the saved spreading file, the printed rows of sampled series (of one label or more), the collected interfaces, the sampled interface values, the contact-angle series and the groups of contact-line averages of the shorter series are beginnings of those of the longer one. A series that ended in an error, or of which a label was missing, ends in the same way when it goes on.", "quantifier": "every directory and larger directory, every pair of ends of the search, every series of maps or interface files and every continuation of it, all options", "why_tests_cant": "It relates two runs on any two inputs of which one continues the other; tests look at one run each.", "anchors": ["strata/utils.py: find_datamap_files", "strata/spreading/collect.py: collect", "strata/sample_average.py: sample_average_files", "strata/interface/collect.py: collect_interfaces", "strata/interface/sample.py: sample_interfaces", "strata/interface/angle.py: interface_contact_angle", "strata/contact_line_analysis.py: get_grouped_data"]}
{"id": "C174", "title": "Averages and combined bins of simple maps in other units", "statement": "average_data and combine_bins do not depend on the units: for maps whose fields are multiplied by any positive factors (and whose origin may be anywhere) they give the result in these units, with its information, and refuse the same maps. Masses and numbers are not negative.", "quantifier": "every list of maps, complete or not, every positive factor for each field, every origin, every tolerance, every number of bins to combine", "why_tests_cant": "A test averages maps in one set of units; independence relates two runs for all factors.", "anchors": ["strata/dataformats/simple/average.py: average_data", "strata/dataformats/simple/average.py: combine_bins"]}
{"id": "C175", "title": "Numbers of bins that make no sense", "statement": "Functions that combine or split bins refuse zero and negative numbers of bins: combine_bins, downsample_flow_data and supersample_flow_data raise an exception, and for positive numbers do what C55, C24 and C27 say.", "quantifier": "every map and its information, every pair of integers, all weights and limits", "why_tests_cant": "Every integer and every map has to be considered, and the effect on the result for a negative number goes through slices and empty ranges.", "anchors": ["strata/dataformats/simple/average.py: combine_bins", "droplets/resample.py: downsample_flow_data", "droplets/resample.py: supersample_flow_data"]}
{"id": "C176", "title": "Results depend on the maps, not on the files that hold them", "statement": "Two series of files that are read as the same maps, one by one (or are refused alike), have the same spreading curve and the same sampled values, and the runs end in the same way, whatever the directories, base names, extensions, first numbers and formats of the files are and whether or where the results are saved, as long as they are not saved over one of the files. The averages of their groups, if they are not read again in the same run, are the same files, byte for byte, up to the first group that cannot be averaged or written, at which both runs end alike; the interfaces collected from them are the same, number by number. Two series of interface files that are read as the same points have the same sampled values and contact angles. In particular a series of gmx files and its conversion to gmx files elsewhere give the same curves and samples (when the values are finite in single precision, bins without mass hold nothing and positions have six decimals).", "quantifier": "every two file systems, directories, base names, extensions and ranges, every format and bytes of the files, all options, with or without a saved file", "why_tests_cant": "It relates runs on all pairs of file systems that hold the same maps, in any format and under any names; tests look at one run at a time.", "anchors": ["strata/spreading/collect.py: collect", "strata/sample_average.py: sample_average_files", "strata/dataformats/read.py: read_data_file", "strata/convert.py: convert", "strata/average.py: average", "strata/interface/collect.py: collect_interfaces", "strata/interface/sample.py: sample_interfaces", "strata/interface/angle.py: interface_contact_angle", "strata/utils.py: find_datamap_files"]}
