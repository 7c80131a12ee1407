{
 "claims": [
  {
   "property": "C01",
   "status": "proved",
   "theorems": [
    "Strata.Files.C01_name_is_base_number_ext",
    "Strata.Files.C01_names_injective",
    "Strata.Files.C01_gen_bounded",
    "Strata.Files.C01_gen_unbounded"
   ],
   "note": ""
  },
  {
   "property": "C02",
   "status": "proved",
   "theorems": [
    "Strata.Files.C02_discovery_maximal_prefix",
    "Strata.Files.C02_discovery_mem_iff",
    "Strata.Files.C02_discovery_terminates",
    "Strata.Files.C02_warning_iff"
   ],
   "note": ""
  },
  {
   "property": "C03",
   "status": "proved",
   "theorems": [
    "Strata.Files.C03_groups",
    "Strata.Files.C03_group_zero_diverges"
   ],
   "note": ""
  },
  {
   "property": "C04",
   "status": "proved",
   "theorems": [
    "Strata.Files.C04_pairs",
    "Strata.Files.C04_outputs_distinct"
   ],
   "note": ""
  },
  {
   "property": "C05",
   "status": "proved",
   "theorems": [
    "Strata.Files.C05_group_numbering",
    "Strata.Files.C05_group_number_is_ceil",
    "Strata.Files.C05_outputs_distinct"
   ],
   "note": ""
  },
  {
   "property": "C06",
   "status": "proved",
   "theorems": [
    "Strata.Files.C06_prepare_path_safe",
    "Strata.Files.C06_backup_name"
   ],
   "note": ""
  },
  {
   "property": "C07",
   "status": "proved",
   "theorems": [
    "Strata.Files.C07_history_and_crash",
    "Strata.Files.C07_complete_write_visible"
   ],
   "note": ""
  },
  {
   "property": "C08",
   "status": "proved",
   "theorems": [
    "Strata.Flow.C08_stores_columns",
    "Strata.Flow.C08_constructed_is_wellformed",
    "Strata.Flow.C08_bad_argument"
   ],
   "note": ""
  },
  {
   "property": "C09",
   "status": "partial",
   "theorems": [
    "Strata.Flow.C09_mismatch_rejected_partial",
    "Strata.Flow.C09_length_one_counterexample"
   ],
   "note": "A column of length 1 among longer ones is silently broadcast (C09_length_one_counterexample); every other mismatch is proved to raise ValueError."
  },
  {
   "property": "C10",
   "status": "proved",
   "theorems": [
    "Strata.Flow.C10_set_info",
    "Strata.Flow.C10_unknown_key",
    "Strata.Flow.C10_set_info_iff",
    "Strata.Flow.C10_size"
   ],
   "note": ""
  },
  {
   "property": "C11",
   "status": "proved",
   "theorems": [
    "Strata.Flow.C11_copy_faithful",
    "Strata.Flow.C11_independent"
   ],
   "note": ""
  },
  {
   "property": "C12",
   "status": "proved",
   "theorems": [
    "Strata.Flow.C12_lims",
    "Strata.Flow.C12_unknown_label"
   ],
   "note": ""
  },
  {
   "property": "C13",
   "status": "proved",
   "theorems": [
    "Strata.Flow.C13_lims_commute",
    "Strata.Flow.C13_lims_idempotent"
   ],
   "note": ""
  },
  {
   "property": "C14",
   "status": "proved",
   "theorems": [
    "Strata.Flow.C14_cut",
    "Strata.Flow.C14_cut_grid"
   ],
   "note": ""
  },
  {
   "property": "C15",
   "status": "proved",
   "theorems": [
    "Strata.Flow.C15_sort",
    "Strata.Flow.C15_sort_canonical"
   ],
   "note": ""
  },
  {
   "property": "C16",
   "status": "proved",
   "theorems": [
    "Strata.Flow.C16_translate",
    "Strata.Flow.C16_translate_back",
    "Strata.Flow.C16_translate_array",
    "Strata.Flow.C16_translate_broadcast",
    "Strata.Flow.C16_unknown_label"
   ],
   "note": ""
  },
  {
   "property": "C17",
   "status": "proved",
   "theorems": [
    "Strata.Flow.C17_lim_indices",
    "Strata.Flow.C17_unknown_label"
   ],
   "note": ""
  },
  {
   "property": "C18",
   "status": "proved",
   "theorems": [
    "Strata.Average.C18_combined_grid",
    "Strata.Average.C18_no_data"
   ],
   "note": ""
  },
  {
   "property": "C19",
   "status": "proved",
   "theorems": [
    "Strata.Average.C19_transfer",
    "Strata.Average.C19_total_preserved"
   ],
   "note": "That the input grid is not modified holds by construction: the model is a function returning a new record (grid.copy() at droplets/average.py:201)."
  },
  {
   "property": "C20",
   "status": "proved",
   "theorems": [
    "Strata.Average.C20_arithmetic_mean",
    "Strata.Average.C20_copies",
    "Strata.Average.C20_bounds",
    "Strata.Average.C20_order"
   ],
   "note": ""
  },
  {
   "property": "C21",
   "status": "proved",
   "theorems": [
    "Strata.Average.C21_weighted_mean",
    "Strata.Average.C21_conserved",
    "Strata.Average.C21_missing_label"
   ],
   "note": ""
  },
  {
   "property": "C22",
   "status": "partial",
   "theorems": [
    "Strata.Average.C22_average",
    "Strata.Average.C22_no_input",
    "Strata.Average.C22_unset_spacing_partial",
    "Strata.Average.C22_different_spacing",
    "Strata.Average.C22_unset_spacing_counterexample"
   ],
   "note": "Value, geometry and the errors for no input, differing spacings and a single map without spacing are proved; with several maps an unset spacing raises TypeError instead of ValueError (proved for all such inputs)."
  },
  {
   "property": "C23",
   "status": "partial",
   "theorems": [
    "Strata.Average.C23_excluded_partial",
    "Strata.Average.C23_included_counterexample"
   ],
   "note": "exclude_empty_sets=True proved; with False an empty map makes every average fail (proved for all inputs with an empty map)."
  },
  {
   "property": "C24",
   "status": "proved",
   "theorems": [
    "Strata.Resample.C24_block_sums",
    "Strata.Resample.C24_total_preserved"
   ],
   "note": ""
  },
  {
   "property": "C25",
   "status": "proved",
   "theorems": [
    "Strata.Resample.C25_weighted_mean",
    "Strata.Resample.C25_conserved",
    "Strata.Resample.C25_bounds"
   ],
   "note": "Conservation and bounds are for non-negative weights; conservation also requires that the weight is not itself a weighted field."
  },
  {
   "property": "C26",
   "status": "proved",
   "theorems": [
    "Strata.Resample.C26_geometry"
   ],
   "note": ""
  },
  {
   "property": "C27",
   "status": "proved",
   "theorems": [
    "Strata.Resample.C27_identity",
    "Strata.Resample.C27_geometry"
   ],
   "note": "That the input is unchanged holds by construction (the model is a function; the code works on flow.copy())."
  },
  {
   "property": "C28",
   "status": "proved",
   "theorems": [
    "Strata.Resample.C28_local_mean",
    "Strata.Resample.C28_bounded"
   ],
   "note": ""
  },
  {
   "property": "C29",
   "status": "partial",
   "theorems": [
    "Strata.Resample.C29_shape_spacing_partial",
    "Strata.Resample.C29_origin_moves"
   ],
   "note": "Shape, spacing and number of bins are restored; the origin is not: it moves by (dx - dx/n)/2 (proved for every map and factor)."
  },
  {
   "property": "C30",
   "status": "proved",
   "theorems": [
    "Strata.Interface.C30_neighbours",
    "Strata.Interface.C30_symmetric",
    "Strata.Interface.C30_monotone"
   ],
   "note": ""
  },
  {
   "property": "C31",
   "status": "proved",
   "theorems": [
    "Strata.Interface.C31_liquid",
    "Strata.Interface.C31_monotone",
    "Strata.Interface.C31_order_independent"
   ],
   "note": ""
  },
  {
   "property": "C32",
   "status": "proved",
   "theorems": [
    "Strata.Interface.C32_outside_in",
    "Strata.Interface.C32_default_cutoff"
   ],
   "note": ""
  },
  {
   "property": "C33",
   "status": "proved",
   "theorems": [
    "Strata.Interface.C33_longest_run",
    "Strata.Interface.C33_periodic_search",
    "Strata.Interface.C33_needs_the_box",
    "Strata.Interface.C33_returns_iff"
   ],
   "note": ""
  },
  {
   "property": "C34",
   "status": "partial",
   "theorems": [
    "Strata.Interface.C34_sorted_layers_partial",
    "Strata.Interface.C34_unsorted_counterexample"
   ],
   "note": "Proved for layers stored in ascending x; false for other orders (C34_unsorted_counterexample)."
  },
  {
   "property": "C35",
   "status": "partial",
   "theorems": [
    "Strata.Interface.C35_flat_bins_counterexample",
    "Strata.Interface.C35_default_radius_partial",
    "Strata.Interface.C35_default_radius_iff"
   ],
   "note": "The default radius is the smallest x difference only; false for bins higher resolved in y (counterexample proved)."
  },
  {
   "property": "C36",
   "status": "partial",
   "theorems": [
    "Strata.Interface.C36_translation_counterexample",
    "Strata.Interface.C36_translation_inside_partial"
   ],
   "note": "Proved for translations that keep the map between 0 and the box length; false in general (counterexample proved)."
  },
  {
   "property": "C37",
   "status": "partial",
   "theorems": [
    "Strata.Interface.C37_angle_meaning",
    "Strata.Interface.C37_floor_layer",
    "Strata.Interface.C37_contact_angle",
    "Strata.Interface.C37_no_liquid_in_floor_partial",
    "Strata.Interface.C37_no_liquid_raises",
    "Strata.Interface.C37_single_layer_raises",
    "Strata.Interface.C37_mirror"
   ],
   "note": "Angles, layer choice, range and mirror symmetry proved; (None, None) is returned only if some layer above the floor has liquid, otherwise StopIteration / UnboundLocalError (both proved)."
  },
  {
   "property": "C38",
   "status": "partial",
   "theorems": [
    "Strata.ContactLine.C38_cells_are_the_box",
    "Strata.ContactLine.C38_errors",
    "Strata.ContactLine.C38_widening_partial",
    "Strata.ContactLine.C38_widening_counterexample"
   ],
   "note": "The cells are proved to be exactly the box for all inputs. Widening never removes bins if the height of the area is at least the extraction height; otherwise it can (witness)."
  },
  {
   "property": "C39",
   "status": "proved",
   "theorems": [
    "Strata.ContactLine.C39_adjust",
    "Strata.ContactLine.C39_empty",
    "Strata.ContactLine.C39_bad_direction"
   ],
   "note": ""
  },
  {
   "property": "C40",
   "status": "proved",
   "theorems": [
    "Strata.Sample.C40_mass_weighted_mean",
    "Strata.Sample.C40_within_range",
    "Strata.Sample.C40_translation_and_scaling"
   ],
   "note": ""
  },
  {
   "property": "C41",
   "status": "proved",
   "theorems": [
    "Strata.Sample.C41_inertial_energy"
   ],
   "note": ""
  },
  {
   "property": "C42",
   "status": "proved",
   "theorems": [
    "Strata.Sample.C42_nonneg",
    "Strata.Sample.C42_constant_velocity",
    "Strata.Sample.C42_quadratic",
    "Strata.Sample.C42_rigid_motion"
   ],
   "note": ""
  },
  {
   "property": "C43",
   "status": "proved",
   "theorems": [
    "Strata.Sample.C43_exact_for_quadratic_flow"
   ],
   "note": ""
  },
  {
   "property": "C44",
   "status": "proved",
   "theorems": [
    "Strata.Sample.C44_bin_angles",
    "Strata.Sample.C44_mean_angle",
    "Strata.Sample.C44_angle_is_unique",
    "Strata.Sample.C44_scaling_of_bins",
    "Strata.Sample.C44_scaling_of_mean",
    "Strata.Sample.C44_order_of_bins",
    "Strata.Sample.C44_labels"
   ],
   "note": "arctan2 is modelled by the argument of a complex number; negative zeros are not modelled."
  },
  {
   "property": "C45",
   "status": "partial",
   "theorems": [
    "Strata.Sample.C45_bins_by_direction_partial",
    "Strata.Sample.C45_negative_axis_counterexample",
    "Strata.Sample.C45_interval_end_counterexample",
    "Strata.Sample.C45_as_coded"
   ],
   "note": "Proved for every bin except those on the negative x axis (counted at 0 degrees, proved for all of them) and those within 1e-6 degrees below the end of an interval (witness). C45_as_coded states the exact contents of every interval for all bins, including those two cases."
  },
  {
   "property": "C46",
   "status": "partial",
   "theorems": [
    "Strata.Sample.C46_every_direction_partial",
    "Strata.Sample.C46_last_interval_is_dropped",
    "Strata.Sample.C46_counterexample"
   ],
   "note": "True up to 360 - size; the data of every direction between 360 - size and 360 is dropped (proved for every size and map)."
  },
  {
   "property": "C47",
   "status": "partial",
   "theorems": [
    "Strata.Gmx.C47_round_trip_partial",
    "Strata.Gmx.C47_six_decimals",
    "Strata.Gmx.C47_exact_round_trip_partial",
    "Strata.Gmx.C47_small_maps_are_unreadable"
   ],
   "note": "Proved for maps without or with at least 29 bins with mass, and for every map whose file contains the whole 1024-byte block of the header end; smaller maps are written but cannot be read (C47_small_maps_are_unreadable)."
  },
  {
   "property": "C48",
   "status": "partial",
   "theorems": [
    "Strata.Gmx.C48_header_position_partial",
    "Strata.Gmx.C48_position_iff",
    "Strata.Gmx.C48_counterexample",
    "Strata.Gmx.C48_written_headers"
   ],
   "note": "True exactly if the file contains the whole 1024-byte block of the NUL (C48_position_iff); shorter files are read from an earlier position."
  },
  {
   "property": "C49",
   "status": "partial",
   "theorems": [
    "Strata.Gmx.C49_cut_in_header",
    "Strata.Gmx.C49_cut_in_data_partial",
    "Strata.Gmx.C49_one_value_left_is_accepted",
    "Strata.Gmx.C49_cut_anywhere_partial",
    "Strata.Gmx.C49_one_byte_counterexample"
   ],
   "note": "A cut in the header never returns. For a cut in the data every position is decided: refused, except that files with less than 16 bytes to read are accepted as empty maps, files with one value of the last field left are broadcast, and files with 1 to 8 header bytes read as data may be accepted (all proved, the last by witness)."
  },
  {
   "property": "C50",
   "status": "partial",
   "theorems": [
    "Strata.Simple.C50_round_trip_partial",
    "Strata.Simple.C50_array_round_trip_partial",
    "Strata.Simple.C50_five_decimals",
    "Strata.Simple.C50_coordinates_are_exact_partial",
    "Strata.Simple.C50_row_major_dict_is_misread",
    "Strata.Simple.C50_binary_files_read_as_text"
   ],
   "note": "Proved for dicts column after column and arrays in any order, at least 2 x 2 bins, whose bytes are not UTF-8 text; a dict in row order is misread and some binary files are taken for text (both proved by witness)."
  },
  {
   "property": "C51",
   "status": "partial",
   "theorems": [
    "Strata.Simple.C51_utf8_is_text",
    "Strata.Simple.C51_short_files_partial",
    "Strata.Simple.C51_large_files",
    "Strata.Simple.C51_undecodable_file_read_as_text",
    "Strata.Simple.C51_columns_partial",
    "Strata.Simple.C51_single_row_unreadable",
    "Strata.Simple.C51_text_round_trip_partial"
   ],
   "note": "UTF-8 files are always text; the converse holds below 512 bytes and, for the first 8192 bytes, for large files; an undecodable file is read as text (witness). Columns proved for at least two rows; one row raises TypeError."
  },
  {
   "property": "C52",
   "status": "partial",
   "theorems": [
    "Strata.Simple.C52_information_partial",
    "Strata.Simple.C52_single_row_has_no_spacing",
    "Strata.Simple.C52_close_rows_are_merged"
   ],
   "note": "Proved for at least 2 x 2 bins with rows at least 1e-4 apart; a single row or column has no spacing (NaN) and closer rows are merged (witnesses)."
  },
  {
   "property": "C53",
   "status": "partial",
   "theorems": [
    "Strata.Simple.C53_gmx_is_recognised",
    "Strata.Simple.C53_text_is_simple",
    "Strata.Simple.C53_binary_is_simple_partial",
    "Strata.Simple.C53_simple_file_taken_for_gmx",
    "Strata.Simple.C53_unknown_format"
   ],
   "note": "gmx and text files are always recognised; a simple binary file is, unless its first coordinate spells FORM; a witness that is taken for gmx is given."
  },
  {
   "property": "C54",
   "status": "proved",
   "theorems": [
    "Strata.SimpleAverage.C54_no_input",
    "Strata.SimpleAverage.C54_average",
    "Strata.SimpleAverage.C54_momentum",
    "Strata.SimpleAverage.C54_coordinates_differ",
    "Strata.SimpleAverage.C54_missing_field",
    "Strata.SimpleAverage.C54_sizes_differ"
   ],
   "note": "Weighted means are stated for a total weight that is not 0, and for weights all 0; with non-negative weights these are all cases. Negative weights cancelling to 0 give the largest float (np.nan_to_num), see SimpleAverage.quotient."
  },
  {
   "property": "C55",
   "status": "proved",
   "theorems": [
    "Strata.SimpleAverage.C55_combined",
    "Strata.SimpleAverage.C55_conserved",
    "Strata.SimpleAverage.C55_errors"
   ],
   "note": "Conservation of momentum and N*T is for non-negative masses and numbers."
  },
  {
   "property": "C56",
   "status": "partial",
   "theorems": [
    "Strata.Driver.C56_series_partial",
    "Strata.Driver.C56_in_place",
    "Strata.Driver.C56_quiet_always_raises",
    "Strata.Driver.C56_content",
    "Strata.Driver.C56_read_back_partial"
   ],
   "note": "Every complete group is written with the average of exactly its files (any group size and rolling), also if the output overwrites inputs of other groups (C56_in_place); groups of less than one file: C120; quiet=True always raises UnboundLocalError after the last file (proved)."
  },
  {
   "property": "C57",
   "status": "partial",
   "theorems": [
    "Strata.Driver.C57_plain_partial",
    "Strata.Driver.C57_combining_is_never_written",
    "Strata.Driver.C57_supersampling_is_never_written",
    "Strata.Driver.C57_supersampled_series_raises",
    "Strata.Driver.C57_cut_rows",
    "Strata.Driver.C57_cutting_is_never_written"
   ],
   "note": "Proved without combine, supersample and cut. With any of these the file is never written (proved for all maps): the claim fails."
  },
  {
   "property": "C58",
   "status": "partial",
   "theorems": [
    "Strata.Driver.C58_common_grid_partial",
    "Strata.Driver.C58_shift_is_nearest",
    "Strata.Driver.C58_no_overlap",
    "Strata.Driver.C58_within_every_range",
    "Strata.Driver.C58_lengths_differ",
    "Strata.Driver.C58_columns_apart",
    "Strata.Driver.C58_positions",
    "Strata.Driver.C58_other"
   ],
   "note": "Proved for maps whose columns coincide (also for different sizes and positions); for others the claim fails (witness). C58_within_every_range holds for all maps."
  },
  {
   "property": "C59",
   "status": "proved",
   "theorems": [
    "Strata.Files.C59_convert",
    "Strata.Files.C59_convert_in_place",
    "Strata.Files.C59_cross_collision"
   ],
   "note": "Side condition: no output name is the name of a later input (C59_convert_in_place shows it holds in place; C59_cross_collision exhibits what happens otherwise)."
  },
  {
   "property": "C60",
   "status": "partial",
   "theorems": [
    "Strata.SampleSeries.C60_each_frame_from_its_file",
    "Strata.SampleSeries.C60_failing_frame",
    "Strata.SampleSeries.C60_labels_are_independent_partial",
    "Strata.SampleSeries.C60_order_of_bins",
    "Strata.SampleSeries.C60_limits",
    "Strata.SampleSeries.C60_statistics_of_field",
    "Strata.SampleSeries.C60_statistics_of_inertial_energy",
    "Strata.SampleSeries.C60_flow_angle",
    "Strata.SampleSeries.C60_cutoff_needs_label",
    "Strata.SampleSeries.C60_slip_length_after_dissipation"
   ],
   "note": "Everything is proved except the independence of the labels, which is false: slip_length after visc_diss uses re-sorted data (witness); a cutoff without cutoff label has no effect (proved)."
  },
  {
   "property": "C61",
   "status": "proved",
   "theorems": [
    "Strata.SampleSeries.C61_linear_profiles",
    "Strata.SampleSeries.C61_scaling"
   ],
   "note": "Linear profiles per column; the exact least-squares fit is modelled over the rationals."
  },
  {
   "property": "C62",
   "status": "proved",
   "theorems": [
    "Strata.Spreading.C62_edges_and_radius"
   ],
   "note": ""
  },
  {
   "property": "C63",
   "status": "partial",
   "theorems": [
    "Strata.Spreading.C63_radius_exact_partial",
    "Strata.Spreading.C63_both_cross_counterexample",
    "Strata.Spreading.C63_offset_as_coded",
    "Strata.Spreading.C63_fixed_offset_iff"
   ],
   "note": "Positions are wrong by a box length after both edges cross in one step (counterexample proved). The reported positions are proved exact up to a fixed, fully computed offset, and the series is right exactly when that offset is the same in every frame; the radius is proved exact without restriction."
  },
  {
   "property": "C64",
   "status": "partial",
   "theorems": [
    "Strata.Spreading.C64_rows_aligned",
    "Strata.Spreading.C64_empty_maps_do_not_matter",
    "Strata.Spreading.C64_time_of_frame_partial",
    "Strata.Spreading.C64_gap_counterexample"
   ],
   "note": "Proved: rows, order, times t0+n*dt, independence of empty maps. The time is that of the frame only if no map after impact lacks a droplet; with a gap the code shifts times (counterexample proved)."
  },
  {
   "property": "C65",
   "status": "partial",
   "theorems": [
    "Strata.Spreading.C65_first_series_partial",
    "Strata.Spreading.C65_second_series_counterexample"
   ],
   "note": "Proved for the first series of a process; the flag is a function attribute never reset, so later series lack the block (proved for every later series)."
  },
  {
   "property": "C66",
   "status": "proved",
   "theorems": [
    "Strata.Spreading.C66_synchronised",
    "Strata.Spreading.C66_errors"
   ],
   "note": ""
  },
  {
   "property": "C67",
   "status": "partial",
   "theorems": [
    "Strata.InterfaceFiles.C67_overlapping_partial",
    "Strata.InterfaceFiles.C67_first",
    "Strata.InterfaceFiles.C67_spacing",
    "Strata.InterfaceFiles.C67_disjoint_counterexample",
    "Strata.InterfaceFiles.C67_gap_counterexample"
   ],
   "note": "Proved for overlapping ranges of evenly spaced heights; for all disjoint ranges a value is put in a row of another height (proved) and with a gap between layers values are misplaced or the transfer fails (witness)."
  },
  {
   "property": "C68",
   "status": "proved",
   "theorems": [
    "Strata.InterfaceFiles.C68_area_is_polygon",
    "Strata.InterfaceFiles.C68_collected",
    "Strata.InterfaceFiles.C68_area_moved_x",
    "Strata.InterfaceFiles.C68_area_moved_y",
    "Strata.InterfaceFiles.C68_area_mirrored",
    "Strata.InterfaceFiles.C68_area_bounds",
    "Strata.InterfaceFiles.C68_area_nonneg",
    "Strata.InterfaceFiles.C68_area_refused",
    "Strata.InterfaceFiles.C68_area_odd",
    "Strata.InterfaceFiles.C68_length_is_path",
    "Strata.InterfaceFiles.C68_length_additive",
    "Strata.InterfaceFiles.C68_length_ends",
    "Strata.InterfaceFiles.C68_length_via",
    "Strata.InterfaceFiles.C68_length_moved",
    "Strata.InterfaceFiles.C68_length_mirrored"
   ],
   "note": ""
  },
  {
   "property": "C69",
   "status": "proved",
   "theorems": [
    "Strata.ContactLine.C69_fuse",
    "Strata.ContactLine.C69_no_collision",
    "Strata.ContactLine.C69_empty_edge"
   ],
   "note": ""
  },
  {
   "property": "C70",
   "status": "proved",
   "theorems": [
    "Strata.ContactLine.C70_coord_on_grid",
    "Strata.ContactLine.C70_nearest"
   ],
   "note": ""
  },
  {
   "property": "C71",
   "status": "partial",
   "theorems": [
    "Strata.View.C71_as_coded",
    "Strata.View.C71_square_bins_partial",
    "Strata.View.C71_counterexample"
   ],
   "note": "Proved for square bins. For other bins the spacings are swapped and every non-constant linear density gives a wrong gradient (proved)."
  },
  {
   "property": "C72",
   "status": "partial",
   "theorems": [
    "Strata.View.C72_as_coded",
    "Strata.View.C72_exactly_bins_with_flow_partial",
    "Strata.View.C72_counterexample"
   ],
   "note": "Proved if no bin has flow along one axis only; bins with flow along one axis only are dropped (proved for all maps)."
  },
  {
   "property": "C73",
   "status": "partial",
   "theorems": [
    "Strata.View.C73_region_partial",
    "Strata.View.C73_exact_quotient_counterexample",
    "Strata.View.C73_zero_limit_counterexample",
    "Strata.View.C73_no_cutoff_counterexample",
    "Strata.View.C73_sorted_counterexample"
   ],
   "note": "Proved for file order, limits other than 0 and quotients rounded down; counterexamples for exact quotients, limits of 0, missing cutoff and sorted data, each proved for all maps. Masked bins only enter the extents."
  },
  {
   "property": "C74",
   "status": "proved",
   "theorems": [
    "Strata.Cli.C74_optional_integer",
    "Strata.Cli.C74_optional_float",
    "Strata.Cli.C74_unambiguous",
    "Strata.Cli.C74_list_of_texts",
    "Strata.Cli.C74_list_of_floats",
    "Strata.Cli.C74_absent_end",
    "Strata.Cli.C74_list_of_numbers"
   ],
   "note": ""
  },
  {
   "property": "C75",
   "status": "proved",
   "theorems": [
    "Strata.Spreading.C75_scale_common",
    "Strata.Spreading.C75_scale_separate",
    "Strata.Spreading.C75_scale_mismatch",
    "Strata.Spreading.C75_scale_one_curve",
    "Strata.Spreading.C75_scale_single_factor",
    "Strata.Spreading.C75_scale_then_sync"
   ],
   "note": ""
  },
  {
   "property": "C76",
   "status": "proved",
   "theorems": [
    "Strata.Spreading.C76_fit_range",
    "Strata.Spreading.C76_never_empty"
   ],
   "note": ""
  },
  {
   "property": "C77",
   "status": "partial",
   "theorems": [
    "Strata.SimpleAverage.C77_combined_positions_partial",
    "Strata.SimpleAverage.C77_gmx_maps_are_shifted"
   ],
   "note": "True for maps whose origin is the centre of the first bin (simple files); maps from gmx_flow_1 files are shifted by half a bin, proved for every such map."
  },
  {
   "property": "C78",
   "status": "proved",
   "theorems": [
    "Strata.Bytes.C78_single_precision",
    "Strata.Bytes.C78_gmx_values_partial"
   ],
   "note": "C78_gmx_values_partial, the consequence for gmx files, carries the restriction of C47."
  },
  {
   "property": "C79",
   "status": "proved",
   "theorems": [
    "Strata.ContactLine.C79_blocks",
    "Strata.ContactLine.C79_rolling",
    "Strata.ContactLine.C79_nonpositive",
    "Strata.ContactLine.C79_times"
   ],
   "note": ""
  },
  {
   "property": "C80",
   "status": "partial",
   "theorems": [
    "Strata.ContactLine.C80_sampling_never_succeeds",
    "Strata.ContactLine.C80_times_partial",
    "Strata.ContactLine.C80_extraction_never_succeeds"
   ],
   "note": "False for every series with a label and a complete group: proved that both functions always fail."
  },
  {
   "property": "C81",
   "status": "proved",
   "theorems": [
    "Strata.ContactLine.C81_edges_put_back"
   ],
   "note": ""
  },
  {
   "property": "C82",
   "status": "partial",
   "theorems": [
    "Strata.ContactLine.C82_shape_partial",
    "Strata.ContactLine.C82_flat_bins_counterexample",
    "Strata.ContactLine.C82_single_layer",
    "Strata.ContactLine.C82_as_coded",
    "Strata.ContactLine.C82_shape_iff"
   ],
   "note": "Proved for at least two layers and dx <= 2 dy; a single layer always raises IndexError (proved) and flat bins give a wrong shape (witness). For complete layers the exact value and the exact condition are proved."
  },
  {
   "property": "C83",
   "status": "partial",
   "theorems": [
    "Strata.Driver.C83_corner_origin_partial",
    "Strata.Driver.C83_first_bin_origin"
   ],
   "note": "Proved if the origin is the corner of the first bin; if it is the first bin (recentred maps, plain files) every bin is off by half a bin, proved for all maps."
  },
  {
   "property": "C84",
   "status": "proved",
   "theorems": [
    "Strata.InterfaceFiles.C84_interface_follows_edges"
   ],
   "note": ""
  },
  {
   "property": "C85",
   "status": "proved",
   "theorems": [
    "Strata.InterfaceFiles.C85_files",
    "Strata.InterfaceFiles.C85_coordinates",
    "Strata.InterfaceFiles.C85_zero",
    "Strata.InterfaceFiles.C85_com",
    "Strata.InterfaceFiles.C85_no_interface"
   ],
   "note": "A map without interface ends the series with ValueError (C85_no_interface); files written before are complete."
  },
  {
   "property": "C86",
   "status": "proved",
   "theorems": [
    "Strata.InterfaceFiles.C86_measured",
    "Strata.InterfaceFiles.C86_closest",
    "Strata.InterfaceFiles.C86_range",
    "Strata.InterfaceFiles.C86_moved",
    "Strata.InterfaceFiles.C86_mirror",
    "Strata.InterfaceFiles.C86_undefined",
    "Strata.InterfaceFiles.C86_straight",
    "Strata.InterfaceFiles.C86_edges",
    "Strata.InterfaceFiles.C86_symmetric"
   ],
   "note": "C86_undefined: with a height of at most half a layer the result is NaN."
  },
  {
   "property": "C87",
   "status": "proved",
   "theorems": [
    "Strata.InterfaceFiles.C87_cap",
    "Strata.InterfaceFiles.C87_base_counterexample"
   ],
   "note": "C87_base_counterexample: for a base at another height than 0 the fit is wrong; collected files begin at height 0 (C85)."
  },
  {
   "property": "C88",
   "status": "proved",
   "theorems": [
    "Strata.InterfaceFiles.C88_times",
    "Strata.InterfaceFiles.C88_error",
    "Strata.InterfaceFiles.C88_collected_areas",
    "Strata.InterfaceFiles.C88_measured_angles",
    "Strata.InterfaceFiles.C88_fitted_angles"
   ],
   "note": ""
  },
  {
   "property": "C89",
   "status": "proved",
   "theorems": [
    "Strata.InterfaceFiles.C89_mean",
    "Strata.InterfaceFiles.C89_single"
   ],
   "note": ""
  },
  {
   "property": "C90",
   "status": "partial",
   "theorems": [
    "Strata.InterfaceFiles.C90_returned_partial",
    "Strata.InterfaceFiles.C90_save_counterexample"
   ],
   "note": "Saving always raises KeyError if some group has an average (proved for all groups); without saving all averages are returned."
  },
  {
   "property": "C91",
   "status": "partial",
   "theorems": [
    "Strata.Spreading.C91_outside_in",
    "Strata.Spreading.C91_longest",
    "Strata.Spreading.C91_floor_unit",
    "Strata.Spreading.C91_floor_partial",
    "Strata.Spreading.C91_floor_counterexample",
    "Strata.Spreading.C91_floor_as_coded",
    "Strata.Spreading.C91_floor_iff"
   ],
   "note": "The edges are proved to be those of the selected layer. Without a floor this is the lowest wetted layer; with a floor it is the lowest layer above it for maps with layers at most one unit apart in ascending order; otherwise the claim fails (witnesses). The floor layer is determined exactly for all heights, with the exact condition for the claim."
  },
  {
   "property": "C92",
   "status": "proved",
   "theorems": [
    "Strata.Spreading.C92_radius_from_maps"
   ],
   "note": ""
  },
  {
   "property": "C93",
   "status": "proved",
   "theorems": [
    "Strata.View.C93_absolute_flow",
    "Strata.View.C93_radial_flow",
    "Strata.View.C93_radial_bound_and_motions"
   ],
   "note": ""
  },
  {
   "property": "C94",
   "status": "partial",
   "theorems": [
    "Strata.View.C94_each_map_partial",
    "Strata.View.C94_dissipation_counterexample",
    "Strata.View.C94_default_type"
   ],
   "note": "Proved for every label but visc_diss; with that label the second map always fails (proved). The default type is always refused with TypeError."
  },
  {
   "property": "C95",
   "status": "partial",
   "theorems": [
    "Strata.View.C95_field",
    "Strata.View.C95_flow",
    "Strata.View.C95_derived",
    "Strata.View.C95_dissipation",
    "Strata.View.C95_cutoff_partial",
    "Strata.View.C95_cutoff_counterexample",
    "Strata.View.C95_cutoff_as_coded",
    "Strata.View.C95_cutoff_own_cells_iff",
    "Strata.View.C95_cutoff_nothing_left"
   ],
   "note": "Without cutoff proved for fields, flow, dissipation, evaporation and gradients. With a cutoff proved if bins of all outer rows and columns remain; counterexample otherwise; the cell of every bin is determined exactly, with the exact condition for the claim."
  },
  {
   "property": "C96",
   "status": "partial",
   "theorems": [
    "Strata.View.C96_limits",
    "Strata.View.C96_field_partial",
    "Strata.View.C96_sorted_counterexample",
    "Strata.View.C96_cutoff_counterexample"
   ],
   "note": "Proved for fields in file order. Sorted quantities: true exactly if nx = ny (both directions proved). Any effective cutoff is refused with ValueError (proved)."
  },
  {
   "property": "C97",
   "status": "partial",
   "theorems": [
    "Strata.SpreadingText.C97_radii_partial",
    "Strata.SpreadingText.C97_accuracy",
    "Strata.SpreadingText.C97_edges_counterexample",
    "Strata.SpreadingText.C97_short_counterexample"
   ],
   "note": "The radii are read back with three decimals if the curve has at least two points; but the edges are read as two further series, and a curve with a single point is lost without a warning (both proved for all files)."
  },
  {
   "property": "C98",
   "status": "partial",
   "theorems": [
    "Strata.SpreadingText.C98_read_back_partial",
    "Strata.SpreadingText.C98_several_files",
    "Strata.SpreadingText.C98_empty_counterexample",
    "Strata.SpreadingText.C98_lines_partial"
   ],
   "note": "Proved for series that are not empty; an empty series makes the whole file unreadable (proved for all files). The text of a series is that of pandas, assumed to have one line of two numbers per point."
  },
  {
   "property": "C99",
   "status": "proved",
   "theorems": [
    "Strata.SpreadingFit.C99_best",
    "Strata.SpreadingFit.C99_unique",
    "Strata.SpreadingFit.C99_exact",
    "Strata.SpreadingFit.C99_few",
    "Strata.SpreadingFit.C99_units",
    "Strata.SpreadingFit.C99_order"
   ],
   "note": ""
  },
  {
   "property": "C100",
   "status": "partial",
   "theorems": [
    "Strata.SpreadingFit.C100_curves_partial",
    "Strata.SpreadingFit.C100_short_counterexample",
    "Strata.SpreadingFit.C100_early_counterexample"
   ],
   "note": "Proved if every series has two points to fit. A single shorter series makes the fit of all series fail with TypeError, and times up to the impact are kept with no or an infinite radius (both proved)."
  },
  {
   "property": "C101",
   "status": "partial",
   "theorems": [
    "Strata.SpreadingFit.C101_view_partial",
    "Strata.SpreadingFit.C101_view_no_series_partial",
    "Strata.SpreadingFit.C101_view_counterexample",
    "Strata.SpreadingFit.C101_fit_partial",
    "Strata.SpreadingFit.C101_fit_counterexample"
   ],
   "note": "Proved with save_xvg given (view) and show on (fit). view_spreading without save_xvg raises KeyError for all data; fit with show off never saves the figure (both proved)."
  },
  {
   "property": "C102",
   "status": "partial",
   "theorems": [
    "Strata.SpreadingFit.C102_label_partial",
    "Strata.SpreadingFit.C102_counterexample"
   ],
   "note": "True if the name contains neither a space nor the last digit of the index; false for all names with that digit (proved)."
  },
  {
   "property": "C103",
   "status": "partial",
   "theorems": [
    "Strata.ContactLine.C103_combined_partial",
    "Strata.ContactLine.C103_zero_counterexample"
   ],
   "note": "Proved for bins whose values are not zero in one edge only; a bin with value zero in one edge is taken as missing, so that the mean of 0 and v is v (counterexample)."
  },
  {
   "property": "C104",
   "status": "partial",
   "theorems": [
    "Strata.ContactLine.C104_edge_average_partial",
    "Strata.ContactLine.C104_cells",
    "Strata.ContactLine.C104_interface_of_mass",
    "Strata.ContactLine.C104_flat_counterexample",
    "Strata.ContactLine.C104_default_area_counterexample"
   ],
   "note": "Proved for edges with at least two layers of cells and bins not wider than twice their height. One map without cells or with one layer makes the whole group fail with IndexError, and with the default extraction area (height 0) every map does (counterexamples for all maps)."
  },
  {
   "property": "C105",
   "status": "partial",
   "theorems": [
    "Strata.ContactLine.C105_group_partial"
   ],
   "note": "Proved under the conditions of C103 and C104."
  },
  {
   "property": "C106",
   "status": "partial",
   "theorems": [
    "Strata.InterfaceText.C106_read_back",
    "Strata.InterfaceText.C106_short",
    "Strata.InterfaceText.C106_series_partial",
    "Strata.InterfaceText.C106_old_files_counterexample"
   ],
   "note": "Proved if the last number is given. Without it, an old file under the next number is taken into the series (counterexample for all series); files with less than two points are refused when read."
  },
  {
   "property": "C107",
   "status": "proved",
   "theorems": [
    "Strata.InterfaceText.C107_sample_file",
    "Strata.InterfaceText.C107_collected",
    "Strata.InterfaceText.C107_missing"
   ],
   "note": ""
  },
  {
   "property": "C108",
   "status": "proved",
   "theorems": [
    "Strata.InterfaceText.C108_angle_file",
    "Strata.InterfaceText.C108_legend",
    "Strata.InterfaceText.C108_ties",
    "Strata.InterfaceText.C108_head"
   ],
   "note": ""
  },
  {
   "property": "C109",
   "status": "partial",
   "theorems": [
    "Strata.Headers.C109_fileopts",
    "Strata.Headers.C109_sample_partial",
    "Strata.Headers.C109_angle_partial",
    "Strata.Headers.C109_average_partial",
    "Strata.Headers.C109_contact_line_partial",
    "Strata.Headers.C109_spreading_partial",
    "Strata.Headers.C109_collect_partial",
    "Strata.Headers.C109_stamp",
    "Strata.Headers.C109_delta_t_counterexample",
    "Strata.Headers.C109_radius_counterexample",
    "Strata.Headers.C109_input_counterexample"
   ],
   "note": "Base path, range, labels, cut-offs, height, averaging and recentring are recorded. The time difference of interface sample, interface angle, sample_average and contact line sample is always recorded as 1.0, the radius of spreading collect as 1.0, and interface collect lists its output as its input (counterexamples for all options)."
  },
  {
   "property": "C110",
   "status": "partial",
   "theorems": [
    "Strata.Commands.C110_truth",
    "Strata.Commands.C110_average",
    "Strata.Commands.C110_convert",
    "Strata.Commands.C110_interface_view",
    "Strata.Commands.C110_contact_line_collect",
    "Strata.Commands.C110_sample",
    "Strata.Commands.C110_contact_line_sample_partial",
    "Strata.Commands.C110_area_counterexample",
    "Strata.Commands.C110_spreading_collect",
    "Strata.Commands.C110_views",
    "Strata.Commands.C110_view_height_partial",
    "Strata.Commands.C110_noaxis_counterexample",
    "Strata.Commands.C110_interface_collect",
    "Strata.Commands.C110_interface_sample",
    "Strata.Commands.C110_interface_angle_partial",
    "Strata.Commands.C110_height_zero_counterexample"
   ],
   "note": "Proved for all commands and options except: the default area of contact_line sample is empty (documented: 1 nm), --noaxis of view height is ignored, and interface angle refuses height 0 (counterexamples)."
  },
  {
   "property": "C111",
   "status": "partial",
   "theorems": [
    "Strata.Commands.C111_spreading_collect",
    "Strata.Commands.C111_spreading_fit",
    "Strata.Commands.C111_interface_collect_partial",
    "Strata.Commands.C111_interface_collect_counterexample"
   ],
   "note": "strata interface collect ends with TypeError whenever its function succeeds (counterexample for all options); the rest is proved."
  },
  {
   "property": "C112",
   "status": "proved",
   "theorems": [
    "Strata.View.C112_one_figure_per_map",
    "Strata.View.C112_only_colours_fail"
   ],
   "note": ""
  },
  {
   "property": "C113",
   "status": "partial",
   "theorems": [
    "Strata.View.C113_field",
    "Strata.View.C113_flow",
    "Strata.View.C113_radial",
    "Strata.View.C113_evaporation_as_coded",
    "Strata.View.C113_evaporation_partial",
    "Strata.View.C113_dissipation"
   ],
   "note": "Evaporation proved for square bins; for others the slopes are scaled (C113_evaporation_as_coded, C71); the radial colour is the flow around the centre (C93)."
  },
  {
   "property": "C114",
   "status": "partial",
   "theorems": [
    "Strata.Driver.C114_series",
    "Strata.Driver.C114_gmx_to_gmx_partial",
    "Strata.Driver.C114_gmx_to_gmx_identical_partial",
    "Strata.Driver.C114_simple_to_gmx_moves",
    "Strata.Driver.C114_to_simple_partial",
    "Strata.Driver.C114_outext_simple_fails"
   ],
   "note": "False from simple to gmx (positions move by half a bin, proved) and for outext with a simple format (TypeError after an existing output was moved away); proved for gmx to gmx (values to 32 bits, identical bytes for files written by strata) and to simple."
  },
  {
   "property": "C115",
   "status": "partial",
   "theorems": [
    "Strata.Driver.C115_average_files_partial",
    "Strata.Driver.C115_gmx_positions",
    "Strata.Driver.C115_simple_positions_move"
   ],
   "note": "Proved for gmx files of a group on grids of one lattice with enough mass; positions of simple files move by half a bin (C115_simple_positions_move)."
  },
  {
   "property": "C116",
   "status": "proved",
   "theorems": [
    "Strata.Driver.C116_in_order",
    "Strata.Driver.C116_local"
   ],
   "note": ""
  },
  {
   "property": "C117",
   "status": "partial",
   "theorems": [
    "Strata.InterfaceView.C117_series",
    "Strata.InterfaceView.C117_drawing",
    "Strata.InterfaceView.C117_save_counterexample"
   ],
   "note": "Proved without save_xvg; with it the call raises KeyError at the first group that can be read, after moving an old file away (proved for all files)."
  },
  {
   "property": "C118",
   "status": "proved",
   "theorems": [
    "Strata.InterfaceView.C118_frames"
   ],
   "note": ""
  },
  {
   "property": "C119",
   "status": "proved",
   "theorems": [
    "Strata.Groups.C119_numbers",
    "Strata.Groups.C119_not_numbers",
    "Strata.Groups.C119_groups"
   ],
   "note": ""
  },
  {
   "property": "C120",
   "status": "proved",
   "theorems": [
    "Strata.Groups.C120_positive",
    "Strata.Groups.C120_below_one"
   ],
   "note": ""
  },
  {
   "property": "C121",
   "status": "proved",
   "theorems": [
    "Strata.SpreadingFiles.C121_saved",
    "Strata.SpreadingFiles.C121_read_back",
    "Strata.SpreadingFiles.C121_not_saved"
   ],
   "note": ""
  },
  {
   "property": "C122",
   "status": "proved",
   "theorems": [
    "Strata.SpreadingFiles.C122_edges",
    "Strata.SpreadingFiles.C122_uniform"
   ],
   "note": ""
  },
  {
   "property": "C123",
   "status": "proved",
   "theorems": [
    "Strata.SavedRuns.C123_saved",
    "Strata.SavedRuns.C123_not_saved",
    "Strata.SavedRuns.C123_same",
    "Strata.SavedRuns.C123_interfaces",
    "Strata.SavedRuns.C123_interfaces_bad",
    "Strata.SavedRuns.C123_average"
   ],
   "note": ""
  },
  {
   "property": "C124",
   "status": "proved",
   "theorems": [
    "Strata.SavedRuns.C124_angles",
    "Strata.SavedRuns.C124_failure"
   ],
   "note": ""
  },
  {
   "property": "C125",
   "status": "proved",
   "theorems": [
    "Strata.Simple.C125_text_positions",
    "Strata.Simple.C125_binary_positions",
    "Strata.Simple.C125_counts",
    "Strata.Simple.C125_missing_bin"
   ],
   "note": ""
  },
  {
   "property": "C126",
   "status": "proved",
   "theorems": [
    "Strata.FloatAverage.C126_exact",
    "Strata.FloatAverage.C126_average_errors",
    "Strata.FloatAverage.C126_double",
    "Strata.FloatAverage.C126_combine_errors"
   ],
   "note": ""
  },
  {
   "property": "C127",
   "status": "partial",
   "theorems": [
    "Strata.Killed.C127_average_killed",
    "Strata.Killed.C127_average_again",
    "Strata.Killed.C127_in_place_counterexample",
    "Strata.Killed.C127_convert_killed",
    "Strata.Killed.C127_convert_again"
   ],
   "note": "Proved for both functions, at every crash point. Running again is proved if no output has the name of an input; in place it fails (witness)."
  },
  {
   "property": "C128",
   "status": "partial",
   "theorems": [
    "Strata.SimpleAverage.C128_stages",
    "Strata.SimpleAverage.C128_order",
    "Strata.SimpleAverage.C128_single",
    "Strata.SimpleAverage.C128_unequal_groups_counterexample"
   ],
   "note": "Proved for groups of equal size and every order; with groups of unequal size the average of averages is different (witness)."
  },
  {
   "property": "C129",
   "status": "proved",
   "theorems": [
    "Strata.SimpleAverage.C129_stages",
    "Strata.SimpleAverage.C129_average_of_combined",
    "Strata.SimpleAverage.C129_negative_weights_counterexample"
   ],
   "note": "For weights that are not negative, as masses and numbers of atoms are; a witness shows that negative weights break the law."
  },
  {
   "property": "C130",
   "status": "partial",
   "theorems": [
    "Strata.FloatGrid.C130_exact",
    "Strata.FloatGrid.C130_as_coded_partial",
    "Strata.FloatGrid.C130_shape_iff",
    "Strata.FloatGrid.C130_binary_grids",
    "Strata.FloatGrid.C130_counterexample",
    "Strata.FloatGrid.C130_shape_counterexample"
   ],
   "note": "The bins, fields and positions are right for all grids; the shape is right exactly if the computed quotient is not below the number of steps. False in general: in double precision two maps of 4 x 2 bins 0.1 wide give a shape of 2 x 3 instead of 3 x 2 (int() truncates 1.9999999999999998). Proved right for grids whose spacing and origin are multiples of a power of two."
  },
  {
   "property": "C131",
   "status": "proved",
   "theorems": [
    "Strata.FloatGrid.C131_combined_grid"
   ],
   "note": "For symmetric roundings with a small relative error, double precision among them (roundBits_neg, rounds_roundBits)."
  },
  {
   "property": "C132",
   "status": "partial",
   "theorems": [
    "Strata.FloatGrid.C132_exact",
    "Strata.FloatGrid.C132_index_iff",
    "Strata.FloatGrid.C132_index_counterexample",
    "Strata.FloatGrid.C132_counterexample"
   ],
   "note": "False: for layers 0.013 apart from -0.012 the fourth layer gets the index of the third in double precision; the next frame raises ValueError or takes the wrong value. Proved: the index is right exactly if the computed quotient is not below it, and else one too small."
  },
  {
   "property": "C133",
   "status": "proved",
   "theorems": [
    "Strata.FloatFiles.C133_output_number",
    "Strata.FloatFiles.C133_groups_to_singles",
    "Strata.FloatFiles.C133_bound_is_sharp"
   ],
   "note": "For roundBits 53 and begin below 2^53 in size; the bound is sharp (C133_bound_is_sharp)."
  },
  {
   "property": "C134",
   "status": "proved",
   "theorems": [
    "Strata.FloatMaps.C134_exact",
    "Strata.FloatMaps.C134_average_errors"
   ],
   "note": "For all roundings of relative error u with (k+1)u <= 1/8; double precision by C126_double. No overflow or underflow."
  },
  {
   "property": "C135",
   "status": "partial",
   "theorems": [
    "Strata.FloatAngles.C135_exact",
    "Strata.FloatAngles.C135_count_iff",
    "Strata.FloatAngles.C135_binary_fractions_partial",
    "Strata.FloatAngles.C135_counterexample"
   ],
   "note": "False: in double precision 0 to 0.2 degrees in steps of 0.1 gives a fourth angle, 0.3, and a full circle in 161 parts gives 162 angles. Proved: the number is right exactly if the computed quotient is not above it, else one too many; right for all multiples of 2^-q degrees, such as whole degrees."
  },
  {
   "property": "C136",
   "status": "partial",
   "theorems": [
    "Strata.FloatEdges.C136_exact",
    "Strata.FloatEdges.C136_half_a_bin",
    "Strata.FloatEdges.C136_same_bin_partial",
    "Strata.FloatEdges.C136_counterexample"
   ],
   "note": "Moved by at most half a bin up to rounding, for all positions; in the exact bin for positions further from its ends than the rounding error of the quotient. False on the ends: in double precision 0.3 is put in bin 2 of a grid with spacing 0.1."
  },
  {
   "property": "C137",
   "status": "partial",
   "theorems": [
    "Strata.Driver.C137_same_edges_partial",
    "Strata.Driver.C137_default_cutoff",
    "Strata.Driver.C137_default_moves_nothing",
    "Strata.Driver.C137_across_boundary",
    "Strata.Driver.C137_two_pieces",
    "Strata.Driver.C137_defaults_differ"
   ],
   "note": "The same edges for every map whose liquid is, in the searched layer, one piece and further from its periodic image than the radius. False otherwise: `average` searches from outside in without the periodic box, and the default cut-off of the command is 0, with which every bin is liquid and recentring moves nothing, for all maps without negative masses."
  },
  {
   "property": "C138",
   "status": "proved",
   "theorems": [
    "Strata.KilledSeries.C138_samples_killed",
    "Strata.KilledSeries.C138_samples_complete",
    "Strata.KilledSeries.C138_samples_again",
    "Strata.KilledSeries.C138_collect_complete",
    "Strata.KilledSeries.C138_collect_killed",
    "Strata.KilledSeries.C138_collect_again"
   ],
   "note": "Also proved that all steps together are the complete call, without hypotheses. The repetition requires an output that is not a numbered file of the series."
  },
  {
   "property": "C139",
   "status": "partial",
   "theorems": [
    "Strata.FloatSpreading.C139_edges_and_radius_partial",
    "Strata.FloatSpreading.C139_double_partial",
    "Strata.FloatSpreading.C139_bin_centres",
    "Strata.FloatSpreading.C139_times",
    "Strata.FloatSpreading.C139_side_of_box"
   ],
   "note": "For edges in the middle of bins, all droplets of C62 within 2^53/(6 nx) boxes; for others with a margin from the sides of the box. False for edges on the side of the box: a droplet moving steadily through a box of 0.7 gets a radius seven times too large."
  },
  {
   "property": "C140",
   "status": "partial",
   "theorems": [
    "Strata.FloatInterface.C140_neighbours",
    "Strata.FloatInterface.C140_interface_partial",
    "Strata.FloatInterface.C140_default_radius_partial",
    "Strata.FloatInterface.C140_rounded_positions_partial",
    "Strata.FloatInterface.C140_gmx_partial",
    "Strata.FloatInterface.C140_default_radius_counterexample",
    "Strata.FloatInterface.C140_radius_counterexample"
   ],
   "note": "All maps and radii with a margin. False for the default radius, which is the smallest computed difference between columns: on a grid of spacing 0.1 no bin has a neighbour and no interface is found."
  },
  {
   "property": "C141",
   "status": "proved",
   "theorems": [
    "Strata.CommandRuns.C141_average",
    "Strata.CommandRuns.C141_combine_one_axis",
    "Strata.CommandRuns.C141_average_files",
    "Strata.CommandRuns.C141_convert",
    "Strata.CommandRuns.C141_spreading_collect"
   ],
   "note": "All options of the three commands. Conversion of the texts of options to values is C74; values that click does not let through are a TypeError in the model."
  },
  {
   "property": "C142",
   "status": "partial",
   "theorems": [
    "Strata.CommandSeries.C142_interface_collect_partial",
    "Strata.CommandSeries.C142_interface_sample",
    "Strata.CommandSeries.C142_interface_angle_partial",
    "Strata.CommandSeries.C142_height_zero_counterexample",
    "Strata.CommandSeries.C142_sample",
    "Strata.CommandSeries.C142_collect_and_sample",
    "Strata.CommandSeries.C142_collect_and_angle"
   ],
   "note": "All options. False for the exit of interface collect, which ends with a TypeError after the last file, and for interface angle with a height of 0, which does nothing."
  },
  {
   "property": "C143",
   "status": "partial",
   "theorems": [
    "Strata.ContactLineFiles.C143_collect_partial",
    "Strata.ContactLineFiles.C143_collect_counterexample",
    "Strata.ContactLineFiles.C143_in_place_counterexample",
    "Strata.ContactLineFiles.C143_sample_partial",
    "Strata.ContactLineFiles.C143_sample_unsaved",
    "Strata.ContactLineFiles.C143_sample_times",
    "Strata.ContactLineFiles.C143_collect_command",
    "Strata.ContactLineFiles.C143_sample_command"
   ],
   "note": "False of the code: collecting fails at the first complete group after moving a file with the name of the first output away (in place: an input file, after which the series is not found any more), and sampling any label fails at the first complete group, leaving the header. Proved: exactly this, nothing lost, and the rows for no labels."
  },
  {
   "property": "C144",
   "status": "proved",
   "theorems": [
    "Strata.Layout.C144_maps",
    "Strata.Layout.C144_title_counterexample",
    "Strata.Layout.C144_series",
    "Strata.Layout.C144_interfaces"
   ],
   "note": "Proved as stated. A comment above the line of names is not skipped (C144_title_counterexample)."
  },
  {
   "property": "C145",
   "status": "proved",
   "theorems": [
    "Strata.Layout.C145_any_layout",
    "Strata.Layout.C145_as_written",
    "Strata.Layout.C145_grid",
    "Strata.Layout.C145_missing",
    "Strata.Layout.C145_no_number",
    "Strata.Layout.C145_empty_line_counterexample",
    "Strata.Layout.C145_negative"
   ],
   "note": "Proved as stated, for files that reach to the end of the 1024-byte block with the end of the header (shorter ones: C48). An empty line in the header makes the file unreadable (C145_empty_line_counterexample)."
  },
  {
   "property": "C146",
   "status": "partial",
   "theorems": [
    "Strata.FloatSample.C146_dissipation",
    "Strata.FloatSample.C146_energy",
    "Strata.FloatSample.C146_center",
    "Strata.FloatSample.C146_exact",
    "Strata.FloatSample.C146_uniform_inside",
    "Strata.FloatSample.C146_uniform_border_counterexample",
    "Strata.FloatSample.C146_double"
   ],
   "note": "Proved except that a uniform flow does not get a dissipation of exactly 0 on the border of the map (C146_uniform_border_counterexample, C146_uniform_inside). No overflow or underflow is modelled."
  },
  {
   "property": "C147",
   "status": "proved",
   "theorems": [
    "Strata.Interface.C147_interface",
    "Strata.Interface.C147_angles",
    "Strata.Interface.C147_origin_counterexample"
   ],
   "note": "For the search for the longest stretch the origin of x is the corner of the box (C147_origin_counterexample shows why)."
  },
  {
   "property": "C148",
   "status": "proved",
   "theorems": [
    "Strata.Interface.C148_nested",
    "Strata.Interface.C148_periodic",
    "Strata.Interface.C148_stretch_elsewhere"
   ],
   "note": "The periodic search is covered for maps stored by ascending x within the box (as C34)."
  },
  {
   "property": "C149",
   "status": "partial",
   "theorems": [
    "Strata.Grace.C149_grace_partial",
    "Strata.Grace.C149_no_target_counterexample",
    "Strata.Grace.C149_comment_counterexample",
    "Strata.Grace.C149_blank_counterexample"
   ],
   "note": "Proved for files with target lines and without comments or empty lines within the sets; otherwise false (C149_no_target_counterexample, C149_comment_counterexample, C149_blank_counterexample)."
  },
  {
   "property": "C150",
   "status": "partial",
   "theorems": [
    "Strata.Interface.C150_order",
    "Strata.Interface.C150_empty_bins",
    "Strata.Interface.C150_mirror",
    "Strata.Interface.C150_angle_order_partial",
    "Strata.Interface.C150_angle_empty_bins",
    "Strata.Interface.C150_default_counterexample",
    "Strata.Interface.C150_periodic_counterexample",
    "Strata.Interface.C150_floor_counterexample"
   ],
   "note": "Proved for the default search (all options; angles if the closest layer to the floor is unique). False for a floor midway between two layers, for the periodic search (as C34) and for default cut-offs and radii when bins are added (C150_floor_counterexample, C150_periodic_counterexample, C150_default_counterexample)."
  },
  {
   "property": "C151",
   "status": "partial",
   "theorems": [
    "Strata.Figure.C151_as_coded",
    "Strata.Figure.C151_pixels_partial",
    "Strata.Figure.C151_only_300",
    "Strata.Figure.C151_contour_counterexample"
   ],
   "note": "True at a resolution of 300 only (C151_only_300, C151_contour_counterexample)."
  },
  {
   "property": "C152",
   "status": "partial",
   "theorems": [
    "Strata.Figure.C152_single_partial",
    "Strata.Figure.C152_counterexample"
   ],
   "note": "True for one map only (C152_counterexample). The file system is reduced to the list of saved pictures."
  },
  {
   "property": "C153",
   "status": "proved",
   "theorems": [
    "Strata.Figure.C153_figure",
    "Strata.Figure.C153_error"
   ],
   "note": "What Matplotlib does with the calls is not modelled."
  },
  {
   "property": "C154",
   "status": "partial",
   "theorems": [
    "Strata.Spreading.C154_curve_partial",
    "Strata.Spreading.C154_floor_counterexample"
   ],
   "note": "For maps without a given floor, or the same unit of length (C154_floor_counterexample)."
  },
  {
   "property": "C155",
   "status": "partial",
   "theorems": [
    "Strata.Average.C155_average_partial",
    "Strata.Average.C155_spacing_counterexample"
   ],
   "note": "For maps of one spacing on one lattice (C155_spacing_counterexample)."
  },
  {
   "property": "C156",
   "status": "proved",
   "theorems": [
    "Strata.Sample.C156_centre_of_mass",
    "Strata.Sample.C156_energy",
    "Strata.Sample.C156_flow_angle",
    "Strata.Sample.C156_dissipation",
    "Strata.Sample.C156_per_angle"
   ],
   "note": "Exact arithmetic."
  },
  {
   "property": "C157",
   "status": "proved",
   "theorems": [
    "Strata.Flow.C157_copy",
    "Strata.Flow.C157_lims",
    "Strata.Flow.C157_cut",
    "Strata.Flow.C157_size",
    "Strata.Flow.C157_sort",
    "Strata.Flow.C157_translate"
   ],
   "note": "Exact arithmetic."
  },
  {
   "property": "C158",
   "status": "proved",
   "theorems": [
    "Strata.Resample.C158_downsample",
    "Strata.Resample.C158_supersample"
   ],
   "note": "Weighted fields and weights are not coordinates; when splitting, weights are not weighted themselves."
  },
  {
   "property": "C159",
   "status": "partial",
   "theorems": [
    "Strata.StreamPlot.C159_drawn_iff",
    "Strata.StreamPlot.C159_exact_counterexample",
    "Strata.StreamPlot.C159_density",
    "Strata.StreamPlot.C159_widths",
    "Strata.StreamPlot.C159_no_mass",
    "Strata.StreamPlot.C159_depends_on_rounding"
   ],
   "note": "False: streamlines are drawn exactly when both quotients happen to be rounded down (C159_drawn_iff); with fewer than 30 bins there is nowhere to start one (C159_density)."
  },
  {
   "property": "C160",
   "status": "partial",
   "theorems": [
    "Strata.Interface.C160_interface_mirrored",
    "Strata.Interface.C160_longest_counterexample",
    "Strata.Spreading.C160_spreading_mirrored_partial",
    "Strata.Spreading.C160_middle_counterexample"
   ],
   "note": "False for ties: stretches of equal length (C160_longest_counterexample), edges exactly in the middle of the box (C160_middle_counterexample); proved otherwise."
  },
  {
   "property": "C161",
   "status": "partial",
   "theorems": [
    "Strata.Flow.C161_center_of_mass",
    "Strata.Flow.C161_mean_flow_angle",
    "Strata.Flow.C161_dissipation",
    "Strata.Flow.C161_density_gradient_evaporation",
    "Strata.Flow.C161_energy",
    "Strata.Flow.C161_flow_angles",
    "Strata.Flow.C161_lims",
    "Strata.Flow.C161_cut",
    "Strata.Flow.C161_downsample",
    "Strata.Flow.C161_supersample",
    "Strata.Flow.C161_per_angle",
    "Strata.Flow.C161_arrows",
    "Strata.Flow.C161_average_sorted_partial",
    "Strata.Flow.C161_average_counterexample",
    "Strata.Average.C161_average_same_order"
   ],
   "note": "False for average_flow_data, which does not sort its maps (C161_average_counterexample), and for streamlines (C73_sorted_counterexample); proved for the others."
  },
  {
   "property": "C162",
   "status": "proved",
   "theorems": [
    "Strata.Resample.C162_dissipation",
    "Strata.Resample.C162_density_gradient",
    "Strata.Resample.C162_evaporation",
    "Strata.Resample.C162_energy"
   ],
   "note": ""
  },
  {
   "property": "C163",
   "status": "partial",
   "theorems": [
    "Strata.Flow.C163_bins",
    "Strata.Flow.C163_center_of_mass",
    "Strata.Flow.C163_mean_flow_angle",
    "Strata.Flow.C163_flow_angles",
    "Strata.Flow.C163_energy",
    "Strata.Flow.C163_absolute_flow",
    "Strata.Flow.C163_radial_flow_partial",
    "Strata.Flow.C163_arrows_partial",
    "Strata.Flow.C163_arrows_counterexample",
    "Strata.Flow.C163_radial_flow_counterexample"
   ],
   "note": "False for arrows, which bins lose when their flow is turned into the direction of an axis (C163_arrows_counterexample), and for the radial flow of a bin at the centre of mass (C163_radial_flow_counterexample); proved for the others."
  },
  {
   "property": "C164",
   "status": "partial",
   "theorems": [
    "Strata.Concurrent.C164_any_moment_partial",
    "Strata.Concurrent.C164_ends_partial",
    "Strata.Concurrent.C164_results_partial",
    "Strata.Concurrent.C164_schedules_partial",
    "Strata.Concurrent.C164_nothing_lost_partial",
    "Strata.Concurrent.C164_separate",
    "Strata.Concurrent.C164_average_numbered",
    "Strata.Concurrent.C164_convert_numbered",
    "Strata.Concurrent.C164_series_separate",
    "Strata.Concurrent.C164_same_output_counterexample",
    "Strata.Concurrent.C164_gone_counterexample",
    "Strata.Concurrent.C164_new_directory_counterexample"
   ],
   "note": "False if two commands have the same output (an old file is lost: C164_same_output_counterexample; an error: C164_gone_counterexample) or make the same new directory (C164_new_directory_counterexample); proved for all others, for any number of commands and any schedule."
  },
  {
   "property": "C165",
   "status": "partial",
   "theorems": [
    "Strata.Simple.C165_whole_columns_accepted",
    "Strata.Simple.C165_part_of_a_column",
    "Strata.Simple.C165_part_of_a_column_partial",
    "Strata.Simple.C165_one_value_of_a_row",
    "Strata.Simple.C165_part_of_a_row",
    "Strata.Simple.C165_part_of_a_value_ignored",
    "Strata.Simple.C165_part_of_a_column_counterexample",
    "Strata.Simple.C165_two_values_counterexample"
   ],
   "note": "False: the first columns are accepted as a smaller map (C165_whole_columns_accepted), a part of a column if its rows can be divided among the columns begun, with values in wrong places (C165_part_of_a_column, C165_part_of_a_column_counterexample), also two values of a row (C165_two_values_counterexample); proved refused in the other cases."
  },
  {
   "property": "C166",
   "status": "partial",
   "theorems": [
    "Strata.Concurrent.C166_outputs_partial",
    "Strata.Concurrent.C166_backups_partial",
    "Strata.Concurrent.C166_average_tidy",
    "Strata.Concurrent.C166_convert_tidy",
    "Strata.Concurrent.C166_reader_counterexample"
   ],
   "note": "Proved for tidy commands (each output written once, no output an input or named like a backup: average and convert on series with different names); that readers refuse parts is false (C166_reader_counterexample)."
  },
  {
   "property": "C167",
   "status": "partial",
   "theorems": [
    "Strata.Collecting.C167_any_moment_partial",
    "Strata.Collecting.C167_results_partial",
    "Strata.Collecting.C167_ends_partial",
    "Strata.Collecting.C167_schedules_partial",
    "Strata.Collecting.C167_watched_partial",
    "Strata.Collecting.C167_separate",
    "Strata.Collecting.C167_same_output_counterexample"
   ],
   "note": "Proved for commands with outputs of their own in directories that exist; false for commands with the same output (C167_same_output_counterexample) and for new directories (as in C164)."
  },
  {
   "property": "C168",
   "status": "partial",
   "theorems": [
    "Strata.Sample.C168_turned_partial",
    "Strata.Sample.C168_displaced",
    "Strata.Sample.C168_counterexample"
   ],
   "note": "Displacements: proved without exception. Turns: proved if no bin is on the negative x axis as seen from the origin, before or after (such bins are taken to be at 0 degrees: C168_counterexample), and for limits within 0 and 360 - size (the last interval is never sampled, C46)."
  },
  {
   "property": "C169",
   "status": "proved",
   "theorems": [
    "Strata.View.C169_density_gradient_as_coded",
    "Strata.View.C169_density_gradient",
    "Strata.View.C169_evaporation",
    "Strata.View.C169_absolute_flow",
    "Strata.View.C169_radial_flow"
   ],
   "note": ""
  },
  {
   "property": "C170",
   "status": "proved",
   "theorems": [
    "Strata.SampleSeries.C170_value",
    "Strata.SampleSeries.C170_frame",
    "Strata.SampleSeries.C170_series"
   ],
   "note": ""
  },
  {
   "property": "C171",
   "status": "partial",
   "theorems": [
    "Strata.SampleSeries.C171_parts_x_partial",
    "Strata.SampleSeries.C171_parts_y_partial",
    "Strata.SampleSeries.C171_dissipation_does_not_add_up",
    "Strata.SampleSeries.C171_midpoints_do_not_add_up"
   ],
   "note": "Proved along x and y for all fields and the inertial energy, without cutoff or with a given one. False for the dissipation (gradients across the border are lost) and for a cutoff at the midpoint (which is that of each window): C171_dissipation_does_not_add_up, C171_midpoints_do_not_add_up."
  },
  {
   "property": "C172",
   "status": "proved",
   "theorems": [
    "Strata.Average.C172_totals",
    "Strata.Average.C172_range"
   ],
   "note": ""
  },
  {
   "property": "C173",
   "status": "proved",
   "theorems": [
    "Strata.Longer.C173_files",
    "Strata.Longer.C173_groups",
    "Strata.Longer.C173_spreading",
    "Strata.Longer.C173_spreading_files",
    "Strata.Longer.C173_samples",
    "Strata.Longer.C173_interfaces",
    "Strata.Longer.C173_interface_samples",
    "Strata.Longer.C173_contact_angles",
    "Strata.Longer.C173_contact_line_groups"
   ],
   "note": ""
  },
  {
   "property": "C174",
   "status": "partial",
   "theorems": [
    "Strata.SimpleAverage.C174_combined",
    "Strata.SimpleAverage.C174_average_partial",
    "Strata.SimpleAverage.C174_same_bins_partial",
    "Strata.SimpleAverage.C174_tolerance_depends_on_units"
   ],
   "note": "Proved in full for combine_bins (any units and origin, errors included), and for average_data with the absolute tolerance in the new unit of length, or for maps with the same coordinates and any units and origin. False for average_data otherwise: the default tolerance is an absolute length and the relative one depends on the origin, so that maps refused in nanometres are averaged in micrometres (C174_tolerance_depends_on_units)."
  },
  {
   "property": "C175",
   "status": "partial",
   "theorems": [
    "Strata.SimpleAverage.C175_combine_sensible",
    "Strata.SimpleAverage.C175_combine_refused_partial",
    "Strata.Resample.C175_zero_partial",
    "Strata.Resample.C175_resample_sensible",
    "Strata.Resample.C175_negative_loses_everything",
    "Strata.Resample.C175_negative_accepted"
   ],
   "note": "Proved for combine_bins, and for zero in all three functions. False for negative numbers in downsample_flow_data and supersample_flow_data: every map that can be resampled becomes one without bins whose information has a negative shape (C175_negative_loses_everything, C175_negative_accepted)."
  },
  {
   "property": "C176",
   "status": "proved",
   "theorems": [
    "Strata.SameMaps.C176_averages",
    "Strata.SameMaps.C176_averages_end",
    "Strata.SameMaps.C176_interface_samples",
    "Strata.SameMaps.C176_angles",
    "Strata.SameMaps.C176_interfaces",
    "Strata.SameMaps.C176_spreading",
    "Strata.SameMaps.C176_samples",
    "Strata.SameMaps.C176_converted"
   ],
   "note": ""
  }
 ]
}