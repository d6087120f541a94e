{
 "claims": [
  {
   "property": "C01",
   "status": "proved",
   "theorems": [
    "PyG2P.C01_accumulation_value"
   ],
   "note": ""
  },
  {
   "property": "C02",
   "status": "proved",
   "theorems": [
    "PyG2P.C02_accumulation_keys"
   ],
   "note": ""
  },
  {
   "property": "C03",
   "status": "proved",
   "theorems": [
    "PyG2P.C03_accumulation_conserves"
   ],
   "note": ""
  },
  {
   "property": "C04",
   "status": "partial",
   "theorems": [
    "PyG2P.C04_gap_filled_partial",
    "PyG2P.C04_gap_crash"
   ],
   "note": "every successful run fills gaps linearly; the code can crash with IndexError although both neighbours exist (witness)"
  },
  {
   "property": "C05",
   "status": "partial",
   "theorems": [
    "PyG2P.C05_first_start_partial",
    "PyG2P.C05_weight_wrong",
    "PyG2P.C05_violated"
   ],
   "note": "false of the code: the weight is evaluated at the interval end; exact behaviour proved, negation proved"
  },
  {
   "property": "C06",
   "status": "proved",
   "theorems": [
    "PyG2P.C06_start_zero",
    "PyG2P.C06_zero_base",
    "PyG2P.C06_force_zero_first_only"
   ],
   "note": ""
  },
  {
   "property": "C07",
   "status": "partial",
   "theorems": [
    "PyG2P.C07_start_mask_kept_partial",
    "PyG2P.C07_mask_lost_accumulation",
    "PyG2P.C07_mask_lost_average",
    "PyG2P.C07_mask_lost_instantaneous"
   ],
   "note": "only the mask of the interval start survives; the rest is violated (witnesses)"
  },
  {
   "property": "C08",
   "status": "proved",
   "theorems": [
    "PyG2P.C08_average_value",
    "PyG2P.C08_average_keys"
   ],
   "note": ""
  },
  {
   "property": "C09",
   "status": "proved",
   "theorems": [
    "PyG2P.C09_average_bounds",
    "PyG2P.C09_average_constant",
    "PyG2P.C09_average_linear"
   ],
   "note": ""
  },
  {
   "property": "C10",
   "status": "partial",
   "theorems": [
    "PyG2P.C10_average_start_zero_partial",
    "PyG2P.C10_violated",
    "PyG2P.C10_violated_crash"
   ],
   "note": "false when end+1 is a multiple of the step"
  },
  {
   "property": "C100",
   "status": "partial",
   "theorems": [
    "PyG2P.nonConvex_found",
    "PyG2P.bilinear_assertion_partial",
    "PyG2P.bilinear_assertion_fails"
   ],
   "note": "Proved for source points with different coordinates; violated when two source points have the same coordinates."
  },
  {
   "property": "C101",
   "status": "proved",
   "theorems": [
    "PyG2P.manipulation_memory",
    "PyG2P.aggregation_memory"
   ],
   "note": "Array objects with addresses and in-place updates; for every memory, every set of fields and every setting."
  },
  {
   "property": "C102",
   "status": "proved",
   "theorems": [
    "PyG2P.quoted_items",
    "PyG2P.no_command"
   ],
   "note": "For every sequence of words and quoted items."
  },
  {
   "property": "C103",
   "status": "proved",
   "theorems": [
    "PyG2P.filename_date",
    "PyG2P.filename_date_free",
    "PyG2P.filename_plain"
   ],
   "note": "Names with one row of eight or more digits, and names without."
  },
  {
   "property": "C104",
   "status": "partial",
   "theorems": [
    "PyG2P.netcdf_target_partial",
    "PyG2P.netcdf_target_turned"
   ],
   "note": "Proved for the order latitude, longitude and, as a refusal, for the opposite order with different lengths. Violated for square maps stored with the longitudes first: they are read transposed."
  },
  {
   "property": "C105",
   "status": "partial",
   "theorems": [
    "PyG2P.flipped_id_partial",
    "PyG2P.flipped_same_id"
   ],
   "note": "Violated for every map with rows less than one degree apart: both maps have the same table identifiers."
  },
  {
   "property": "C106",
   "status": "partial",
   "theorems": [
    "PyG2P.written_coords_netcdf",
    "PyG2P.written_coords_partial",
    "PyG2P.written_coords_gap"
   ],
   "note": "Proved for netCDF targets and for regular PCRaster targets without missing cells; a missing cell in the first column gives NaN for its row."
  },
  {
   "property": "C107",
   "status": "partial",
   "theorems": [
    "PyG2P.dem_missing_partial",
    "PyG2P.dem_missing_corrected",
    "PyG2P.dem_float_no_attribute",
    "PyG2P.dem_two_marks",
    "PyG2P.clone_float_no_attribute"
   ],
   "note": "Violated for floating types without attributes (nothing is ever missing) and for two different marks."
  },
  {
   "property": "C108",
   "status": "partial",
   "theorems": [
    "PyG2P.target_refused_partial",
    "PyG2P.target_candidates",
    "PyG2P.target_one_row"
   ],
   "note": "Violated: a file with no or several fields ends in UnboundLocalError, one row of cells in IndexError."
  },
  {
   "property": "C109",
   "status": "proved",
   "theorems": [
    "PyG2P.geopotential_folder",
    "PyG2P.table_folder"
   ],
   "note": "For every folder setting and permission; the geopotential must be of a grid not yet registered."
  },
  {
   "property": "C11",
   "status": "proved",
   "theorems": [
    "PyG2P.C11_half_weights",
    "PyG2P.C11_trapezoid",
    "PyG2P.C11_too_few_steps_nan"
   ],
   "note": ""
  },
  {
   "property": "C110",
   "status": "proved",
   "theorems": [
    "PyG2P.longest_side",
    "PyG2P.widest_of_longest"
   ],
   "note": "For real angles; the triangulation itself is given."
  },
  {
   "property": "C111",
   "status": "partial",
   "theorems": [
    "PyG2P.delaunay_quads"
   ],
   "note": "Proved for source grids that are not global (for global ones the indexes are mapped back as in C75). Triangulation, location of the cells and distance tests are given."
  },
  {
   "property": "C112",
   "status": "proved",
   "theorems": [
    "PyG2P.delaunay_bounds"
   ],
   "note": "For every solver result; the located triangle contains the cell (contract of find_simplex), the missing value is a number and the table names source points (the off-by-one of C75 is excluded by that)."
  },
  {
   "property": "C113",
   "status": "partial",
   "theorems": [
    "PyG2P.delaunay_fails_iff"
   ],
   "note": "Violated: exactly when a cell lies in a triangle numbered above all neighbours of the triangles in use, the run ends in IndexError."
  },
  {
   "property": "C114",
   "status": "partial",
   "theorems": [
    "PyG2P.delaunay_order"
   ],
   "note": "Violated: a concrete triangulation and two cells."
  },
  {
   "property": "C115",
   "status": "partial",
   "theorems": [
    "PyG2P.delaunay_nan"
   ],
   "note": "Violated: outside cells become NaN; a NaN missing value makes cells interpolated in a triangle NaN."
  },
  {
   "property": "C116",
   "status": "partial",
   "theorems": [
    "PyG2P.delaunay_planes_partial"
   ],
   "note": "Proved for rotated source grids and an exact solver; for regular grids the rescaled latitude is used for one kind of cells only."
  },
  {
   "property": "C117",
   "status": "proved",
   "theorems": [
    "PyG2P.plain_run",
    "PyG2P.interpolate_eq",
    "PyG2P.interpolate_fits"
   ],
   "note": "PCRaster output, one grid, tables given; reading of the messages and building of the tables are in other properties."
  },
  {
   "property": "C118",
   "status": "proved",
   "theorems": [
    "PyG2P.accumulation_run"
   ],
   "note": "One grid; every requested end and start available (a missing step 0 counts as zero)."
  },
  {
   "property": "C119",
   "status": "proved",
   "theorems": [
    "PyG2P.average_run"
   ],
   "note": "One grid, without half weights, start different from 0, data reach the end."
  },
  {
   "property": "C12",
   "status": "proved",
   "theorems": [
    "PyG2P.C12_instantaneous"
   ],
   "note": ""
  },
  {
   "property": "C120",
   "status": "proved",
   "theorems": [
    "PyG2P.conserved_run"
   ],
   "note": "One grid, no cut-off and no correction, finite data in unmasked messages, cell made as a weighted sum."
  },
  {
   "property": "C121",
   "status": "partial",
   "theorems": [
    "PyG2P.missing_written_partial",
    "PyG2P.missing_number_written",
    "PyG2P.masked_lost",
    "PyG2P.masked_lost_cut"
   ],
   "note": "Proved for equal missing values and tables of the GRIB library; violated in general: missing values of coordinates and clone that differ, search-tree tables and cut-off lose missing cells."
  },
  {
   "property": "C122",
   "status": "partial",
   "theorems": [
    "PyG2P.formats_agree_partial",
    "PyG2P.formats_differ"
   ],
   "note": "Proved for equal missing values (all aggregations, one or two grids); violated whenever they differ."
  },
  {
   "property": "C123",
   "status": "partial",
   "theorems": [
    "PyG2P.corrected_run_partial",
    "PyG2P.missing_corrected",
    "PyG2P.height_missing_written"
   ],
   "note": "The formula is proved; violated: missing cells are corrected as if they were data, and cells with missing heights get the netCDF fill value."
  },
  {
   "property": "C124",
   "status": "proved",
   "theorems": [
    "PyG2P.file_plain_run"
   ],
   "note": "Indexed file, messages of one grid (equal Nj) with one missing value; the parameter's name contains a lower-case letter."
  },
  {
   "property": "C125",
   "status": "proved",
   "theorems": [
    "PyG2P.file_accumulation_run",
    "PyG2P.file_average_run"
   ],
   "note": "Indexed file, messages of the parameter with different end steps, on one grid with one missing value; averages without half weights from a start different from 0."
  },
  {
   "property": "C126",
   "status": "partial",
   "theorems": [
    "PyG2P.file_none_taken_partial",
    "PyG2P.file_no_named",
    "PyG2P.file_not_indexed"
   ],
   "note": "Proved for indexed files; violated: a file that eccodes cannot index never gives maps, and messages under the parameter's other names are not found if none has exactly its name."
  },
  {
   "property": "C127",
   "status": "proved",
   "theorems": [
    "PyG2P.same_point_given_up",
    "PyG2P.sides_given_up",
    "PyG2P.rows_given_up",
    "PyG2P.opposite_given_up"
   ],
   "note": "All corners; for the last step, whose triangle test is false for collinear points (C74), corners whose triangles are proper."
  },
  {
   "property": "C128",
   "status": "partial",
   "theorems": [
    "PyG2P.global_iff",
    "PyG2P.global_copies",
    "PyG2P.regular_global",
    "PyG2P.regional_not_global",
    "PyG2P.dateline_taken_global",
    "PyG2P.columns_not_global",
    "PyG2P.target_beyond"
   ],
   "note": "Proved for regular grids listed by rows from longitude 0 and for regional grids; violated: a regional grid beginning at the date line is taken as global, a global grid listed by columns is not, and target longitudes beyond 180 are left out."
  },
  {
   "property": "C129",
   "status": "proved",
   "theorems": [
    "PyG2P.plain_within",
    "PyG2P.average_within"
   ],
   "note": "One grid; averages without half weights from a start different from 0."
  },
  {
   "property": "C13",
   "status": "proved",
   "theorems": [
    "PyG2P.C13_refused",
    "PyG2P.C13_accumulation_never_refused"
   ],
   "note": ""
  },
  {
   "property": "C130",
   "status": "proved",
   "theorems": [
    "PyG2P.cutoff_nonneg",
    "PyG2P.accumulation_nonneg"
   ],
   "note": "One grid, no correction (its formula may give any number)."
  },
  {
   "property": "C131",
   "status": "proved",
   "theorems": [
    "PyG2P.run_repeated",
    "PyG2P.first_run"
   ],
   "note": "PCRaster output; tables compressed and in the user's folder (a table found only in the global folder can be shadowed, C58)."
  },
  {
   "property": "C132",
   "status": "proved",
   "theorems": [
    "PyG2P.failed_run",
    "PyG2P.failed_maps",
    "PyG2P.netcdf_all_or_none"
   ],
   "note": "Failures of lookup, interpolation and correction; failures while a file is being written are not modelled."
  },
  {
   "property": "C133",
   "status": "partial",
   "theorems": [
    "PyG2P.own_heights",
    "PyG2P.registered_heights",
    "PyG2P.level_used"
   ],
   "note": "Source file and message proved for indexed input; violated: a geopotential of any level in the input counts as surface geopotential, and the second grid of the run gets the same field."
  },
  {
   "property": "C134",
   "status": "proved",
   "theorems": [
    "PyG2P.corrected_file_run"
   ],
   "note": "Indexed input, messages taken and geopotential each on one grid with one missing value; no cached corrector from an earlier command (C21)."
  },
  {
   "property": "C135",
   "status": "proved",
   "theorems": [
    "PyG2P.two_grid_accumulation_run"
   ],
   "note": "Steps needed available on each grid (a missing step 0 counts as zero). Runs that end exactly one step after the change lose their last interval (C78)."
  },
  {
   "property": "C136",
   "status": "proved",
   "theorems": [
    "PyG2P.two_grid_average_run"
   ],
   "note": "No half weights, start different from 0, step type not accum."
  },
  {
   "property": "C137",
   "status": "proved",
   "theorems": [
    "PyG2P.two_file_accumulation_run",
    "PyG2P.two_file_average_run"
   ],
   "note": "Indexed files, each on one grid, the run ends more than one step after the first message of the second file (see C78); averages without half weights, from a start different from 0."
  },
  {
   "property": "C138",
   "status": "partial",
   "theorems": [
    "PyG2P.two_files_without_end",
    "PyG2P.two_file_accumulation_run"
   ],
   "note": "Violated: the window ends at the last step of the first file, error 3000 if the second file continues it. With an end in the command see C137."
  },
  {
   "property": "C139",
   "status": "partial",
   "theorems": [
    "PyG2P.second_missing_kept_partial",
    "PyG2P.second_missing_converted"
   ],
   "note": "Holds for averages if both files have the same missing value; otherwise missing points of the second file are converted like data."
  },
  {
   "property": "C14",
   "status": "partial",
   "theorems": [
    "PyG2P.C14_accumulation_fails",
    "PyG2P.C14_average_fails",
    "PyG2P.C14_average_succeeds",
    "PyG2P.C14_instantaneous_fails",
    "PyG2P.C14_instantaneous_succeeds",
    "PyG2P.C14_halfweights_silent"
   ],
   "note": "half-weight averages silently use what is there (witness)"
  },
  {
   "property": "C140",
   "status": "proved",
   "theorems": [
    "PyG2P.written_options",
    "PyG2P.written_order",
    "PyG2P.written_used"
   ],
   "note": "argparse of CPython modelled (names, equals signs, attached values, abbreviations, negative numbers); fmap/ext 1, format notset and empty names count as not given (C32)."
  },
  {
   "property": "C141",
   "status": "proved",
   "theorems": [
    "PyG2P.stray_refused",
    "PyG2P.bad_value_refused",
    "PyG2P.missing_value_refused",
    "PyG2P.no_arguments",
    "PyG2P.help_ends"
   ],
   "note": "A negative number in scientific notation after an option counts as a missing value (-O -1e-3 is refused, -O=-1e-3 is accepted)."
  },
  {
   "property": "C142",
   "status": "partial",
   "theorems": [
    "PyG2P.command_options_partial",
    "PyG2P.builder_calls_partial",
    "PyG2P.log_dir_refused"
   ],
   "note": "Violated: with_log_dir sets the option -d, which does not exist, so every such command is refused; see also C48 (no text, switches within the text, values with = or blanks)."
  },
  {
   "property": "C143",
   "status": "proved",
   "theorems": [
    "PyG2P.command_settings"
   ],
   "note": "One input file, PCRaster output (netCDF: C152), no correction of a second grid. Left out: values that count as not given (C32: -f 1, -x 1, -F notset, empty names), 0, '' and false in the command file, settings of a type the program does not expect."
  },
  {
   "property": "C144",
   "status": "proved",
   "theorems": [
    "PyG2P.command_plain_run"
   ],
   "note": "As C143; indexed GRIB file with the messages taken on one grid with one missing value; table fitting the grid."
  },
  {
   "property": "C145",
   "status": "proved",
   "theorems": [
    "PyG2P.command_accumulation_run",
    "PyG2P.command_average_run",
    "PyG2P.command_no_messages"
   ],
   "note": "As C144; needed steps available; averages without half weights and from a start different from 0."
  },
  {
   "property": "C146",
   "status": "partial",
   "theorems": [
    "PyG2P.command_bad_line",
    "PyG2P.command_help",
    "PyG2P.command_unmet",
    "PyG2P.command_no_commands"
   ],
   "note": "Left out: an empty window that ends at step 0 is not noticed (C33); -W and -K always end with status 1 (C38)."
  },
  {
   "property": "C147",
   "status": "proved",
   "theorems": [
    "PyG2P.nearest_reach"
   ],
   "note": "Exact distances; the tables are created for 0 or at least 250 cells only (C66)."
  },
  {
   "property": "C148",
   "status": "partial",
   "theorems": [
    "PyG2P.file_bad_hour",
    "PyG2P.file_plain_run"
   ],
   "note": "Violated: dataTime 0600 is the number 600, its first two digits 60 make no hour, so every run on forecasts of 03:00 to 09:59 ends with ValueError. The run theorems (C124, C125, C134, C137) hold for hours that can be read: 0 and 10 to 23."
  },
  {
   "property": "C149",
   "status": "proved",
   "theorems": [
    "PyG2P.netcdf_plain_run"
   ],
   "note": "Indexed GRIB file with the messages taken on one grid with one missing value, one reference time and one step unit; table fitting the grid; clone with a missing cell (see C151); formats i1, i2, i4 and f8; scale not 0."
  },
  {
   "property": "C15",
   "status": "proved",
   "theorems": [
    "PyG2P.C15_times",
    "PyG2P.C15_conversion_commutes"
   ],
   "note": "the second theorem assumes no aggregated cell happens to equal the missing value (the converter would leave it unconverted)"
  },
  {
   "property": "C150",
   "status": "proved",
   "theorems": [
    "PyG2P.netcdf_accumulation_run",
    "PyG2P.netcdf_average_run"
   ],
   "note": "As C149; needed steps available, at least one interval; averages without half weights and from a start different from 0."
  },
  {
   "property": "C151",
   "status": "partial",
   "theorems": [
    "PyG2P.netcdf_refused",
    "PyG2P.netcdf_no_interval"
   ],
   "note": "Violated: a clone without missing cells, and a run without any map on a clone with missing cells, end with ValueError where the PCRaster run ends well. The refusals of options hold."
  },
  {
   "property": "C152",
   "status": "proved",
   "theorems": [
    "PyG2P.command_netcdf_plain_run"
   ],
   "note": "As C143, C144, C149."
  },
  {
   "property": "C153",
   "status": "proved",
   "theorems": [
    "PyG2P.command_netcdf_accumulation_run",
    "PyG2P.command_netcdf_average_run"
   ],
   "note": "As C145, C150."
  },
  {
   "property": "C154",
   "status": "partial",
   "theorems": [
    "PyG2P.command_netcdf_no_messages",
    "PyG2P.command_netcdf_crash",
    "PyG2P.command_netcdf_written"
   ],
   "note": "Violated: if the maps cannot be made although the file holds messages of the parameter, the netCDF command ends with AttributeError (C37) whatever the error, also where no message is taken; a format in the command file that is not known too, after all the work. A file without the parameter gives status 0."
  },
  {
   "property": "C155",
   "status": "proved",
   "theorems": [
    "PyG2P.two_file_command_settings",
    "PyG2P.two_file_command_accumulation_run",
    "PyG2P.two_file_command_average_run"
   ],
   "note": "As C143, C137; PCRaster output; the table of the second grid is the one of the second file."
  },
  {
   "property": "C156",
   "status": "partial",
   "theorems": [
    "PyG2P.two_file_command_without_end"
   ],
   "note": "Violated: with a second file that continues the first and no end in the command, nothing is written and the status is 0."
  },
  {
   "property": "C157",
   "status": "partial",
   "theorems": [
    "PyG2P.two_file_command_without_aggregation"
   ],
   "note": "Violated: uncaught TypeError."
  },
  {
   "property": "C158",
   "status": "partial",
   "theorems": [
    "PyG2P.two_file_command_accumulated_from_start"
   ],
   "note": "Violated: nothing is written for the steps of the first file."
  },
  {
   "property": "C159",
   "status": "proved",
   "theorems": [
    "PyG2P.switch_group",
    "PyG2P.ambiguous_refused",
    "PyG2P.written_options"
   ],
   "note": "Shortened names are one of the ways of writing an option in Spec.Written."
  },
  {
   "property": "C16",
   "status": "partial",
   "theorems": [
    "PyG2P.aggregation_memory",
    "PyG2P.C16_average_local",
    "PyG2P.C16_half_local",
    "PyG2P.C16_instantaneous_local",
    "PyG2P.C16_accumulation_local",
    "PyG2P.C16_far_field_used"
   ],
   "note": "That no field is altered is proved for the code with array objects and in-place additions. Locality is proved for averages, half-weight averages and instantaneous maps, and for accumulations with data at or before the start; before the first message the code extrapolates from the last one (witness)."
  },
  {
   "property": "C160",
   "status": "proved",
   "theorems": [
    "PyG2P.instantaneous_run",
    "PyG2P.file_instantaneous_run",
    "PyG2P.command_instantaneous_run",
    "PyG2P.netcdf_instantaneous_run",
    "PyG2P.command_netcdf_instantaneous_run",
    "PyG2P.extraction_times"
   ],
   "note": "One grid, one missing value; indexed GRIB file; no message is accumulated or averaged."
  },
  {
   "property": "C161",
   "status": "proved",
   "theorems": [
    "PyG2P.half_weight_run",
    "PyG2P.file_half_weight_run",
    "PyG2P.command_half_weight_run",
    "PyG2P.netcdf_half_weight_run",
    "PyG2P.command_netcdf_half_weight_run"
   ],
   "note": "As C144, C152; start different from 0."
  },
  {
   "property": "C162",
   "status": "proved",
   "theorems": [
    "PyG2P.change_accumulation_run",
    "PyG2P.change_average_run"
   ],
   "note": "Indexed GRIB file, the name asked for is the name of the messages; both grids have the same number of points in the model; the run ends more than one aggregation step after the first message of the second grid (otherwise C78)."
  },
  {
   "property": "C163",
   "status": "proved",
   "theorems": [
    "PyG2P.change_netcdf_accumulation",
    "PyG2P.change_netcdf_average"
   ],
   "note": "As C162, C150."
  },
  {
   "property": "C164",
   "status": "proved",
   "theorems": [
    "PyG2P.two_file_netcdf_accumulation",
    "PyG2P.two_file_netcdf_average"
   ],
   "note": "As C137, C150; the unit of the steps is that of the first file."
  },
  {
   "property": "C165",
   "status": "proved",
   "theorems": [
    "PyG2P.command_change_accumulation_run",
    "PyG2P.command_change_average_run",
    "PyG2P.command_change_netcdf_accumulation",
    "PyG2P.command_change_netcdf_average"
   ],
   "note": "As C143, C153, C162."
  },
  {
   "property": "C166",
   "status": "proved",
   "theorems": [
    "PyG2P.two_file_command_netcdf_accumulation",
    "PyG2P.two_file_command_netcdf_average"
   ],
   "note": "As C155, C164."
  },
  {
   "property": "C167",
   "status": "proved",
   "theorems": [
    "PyG2P.table_plain_run"
   ],
   "note": "Methods nearest and triangulation (not in pieces), invdist, grib_nearest and grib_invdist (also in parallel); indexed input, messages of one grid with one missing value; exact distances; the libraries answer correctly (KNearest, point or four points found, triangle of the cell). The corner that reads the missing value (C75) is part of what triangulation gives."
  },
  {
   "property": "C168",
   "status": "proved",
   "theorems": [
    "PyG2P.table_accumulation_run",
    "PyG2P.table_average_run"
   ],
   "note": "As C167 and C125."
  },
  {
   "property": "C169",
   "status": "proved",
   "theorems": [
    "PyG2P.table_missing"
   ],
   "note": "Tables not registered; a registered table whose file is missing is C56."
  },
  {
   "property": "C17",
   "status": "proved",
   "theorems": [
    "PyG2P.C17_conversion",
    "PyG2P.C17_identity"
   ],
   "note": "numexpr is an oracle giving the meaning of the text"
  },
  {
   "property": "C170",
   "status": "proved",
   "theorems": [
    "PyG2P.command_table_plain_run"
   ],
   "note": "One input file; methods nearest and triangulation (not in pieces), invdist, grib_nearest and grib_invdist (also with `-X`); assumptions of C144 and C167; the folder for tables that the command names is there."
  },
  {
   "property": "C171",
   "status": "proved",
   "theorems": [
    "PyG2P.command_table_accumulation_run",
    "PyG2P.command_table_average_run"
   ],
   "note": "As C170 and C145."
  },
  {
   "property": "C172",
   "status": "proved",
   "theorems": [
    "PyG2P.command_table_netcdf_plain_run",
    "PyG2P.command_table_netcdf_accumulation_run",
    "PyG2P.command_table_netcdf_average_run"
   ],
   "note": "As C170, C152, C153."
  },
  {
   "property": "C173",
   "status": "proved",
   "theorems": [
    "PyG2P.command_table_missing",
    "PyG2P.command_table_netcdf_missing"
   ],
   "note": "Tables not registered; a registered table whose file is missing is C56."
  },
  {
   "property": "C174",
   "status": "proved",
   "theorems": [
    "PyG2P.tables_kept_bad_line",
    "PyG2P.tables_kept_help",
    "PyG2P.tables_kept_unmet",
    "PyG2P.tables_kept_no_commands",
    "PyG2P.tables_kept_no_messages",
    "PyG2P.tables_kept_no_messages_two"
   ],
   "note": "As C146, C154; the file that is not indexed is C126."
  },
  {
   "property": "C175",
   "status": "proved",
   "theorems": [
    "PyG2P.command_tables_accumulation_run",
    "PyG2P.command_tables_average_run"
   ],
   "note": "As C155, C170; the identifiers of the two grids differ when `$` is written `_` (otherwise both use one table)."
  },
  {
   "property": "C176",
   "status": "proved",
   "theorems": [
    "PyG2P.command_tables_netcdf_accumulation",
    "PyG2P.command_tables_netcdf_average"
   ],
   "note": "As C166, C175."
  },
  {
   "property": "C177",
   "status": "proved",
   "theorems": [
    "PyG2P.command_average_zero",
    "PyG2P.netcdf_average_zero",
    "PyG2P.two_file_command_average_zero",
    "PyG2P.netcdf_two_average_zero",
    "PyG2P.table_average_zero",
    "PyG2P.table_netcdf_average_zero",
    "PyG2P.table_two_average_zero",
    "PyG2P.table_netcdf_two_average_zero"
   ],
   "note": "With C145, C153, C155, C161, C166, C171, C172, C175, C176 this says what is written. With two files and netCDF output: same data set stored, or none by either."
  },
  {
   "property": "C178",
   "status": "partial",
   "theorems": [
    "PyG2P.command_average_zero_fails",
    "PyG2P.netcdf_average_zero_fails",
    "PyG2P.table_average_zero_fails",
    "PyG2P.hourly_average_fails",
    "PyG2P.command_average_zero"
   ],
   "note": "Violated: the loop from 0 also wants the interval that ends one step after the end of the run, whose messages are not read: uncaught IndexError (netCDF: AttributeError, C37), no maps, no table created. Hourly averages without a start always fail. Holds in the other cases (C177)."
  },
  {
   "property": "C179",
   "status": "partial",
   "theorems": [
    "PyG2P.two_file_no_messages",
    "PyG2P.two_file_none_taken",
    "PyG2P.two_file_netcdf_crash",
    "PyG2P.two_file_netcdf_written",
    "PyG2P.netcdf_two_refused"
   ],
   "note": "Violated: if the maps cannot be made although the first file holds messages of the parameter, or the format is not known, the netCDF command ends with AttributeError (C37) whatever the error, also where no message is taken. The other ends hold."
  },
  {
   "property": "C18",
   "status": "partial",
   "theorems": [
    "PyG2P.C18_text_partial",
    "PyG2P.C18_violated"
   ],
   "note": "false when 'x=' occurs again in the text (all occurrences are removed)"
  },
  {
   "property": "C180",
   "status": "partial",
   "theorems": [
    "PyG2P.second_table_missing_accumulation",
    "PyG2P.second_table_missing_average",
    "PyG2P.first_table_missing_accumulation",
    "PyG2P.first_table_missing_average",
    "PyG2P.table_missing_netcdf_accumulation",
    "PyG2P.table_missing_netcdf_average"
   ],
   "note": "Violated: when the second table is missing the maps of the first file have been written before the command ends with status 1; with netCDF output the command ends with AttributeError (C37), nothing stored. Holds with PCRaster output when the first table is missing. The last two groups suppose at least one interval of the first file."
  },
  {
   "property": "C181",
   "status": "partial",
   "theorems": [
    "PyG2P.details_text",
    "PyG2P.details_complete",
    "PyG2P.details_unknown",
    "PyG2P.details_names",
    "PyG2P.described_usable",
    "PyG2P.details_without_conversion",
    "PyG2P.details_without_cut"
   ],
   "note": "Violated: KeyError for a parameter without `Conversion` (such as the shipped `10u`) and for one with a conversion without `@cutOffNegative` (the shipped `2d`, and the entry the program itself writes at first start), though commands use both. Holds exactly for complete entries; what is described can be used."
  },
  {
   "property": "C182",
   "status": "partial",
   "theorems": [
    "PyG2P.api_plain_run",
    "PyG2P.api_accumulation_run",
    "PyG2P.api_average_run",
    "PyG2P.api_as_command",
    "PyG2P.api_fails_as_command",
    "PyG2P.api_half_weights"
   ],
   "note": "Violated: an API run ignores half weights (C92): it returns the maps of the command without them; and where a map has NaN inside the clone it keeps NaN (C93), the file has the missing value of the clone. Everything else holds. One input file, tables known."
  },
  {
   "property": "C183",
   "status": "partial",
   "theorems": [
    "PyG2P.api_two_accumulation_run",
    "PyG2P.api_two_average_run",
    "PyG2P.api_two_as_command",
    "PyG2P.api_two_fails_as_command",
    "PyG2P.api_two_half_weights"
   ],
   "note": "Violated as C182: half weights are ignored, NaN inside the clone is kept. Everything else holds."
  },
  {
   "property": "C184",
   "status": "partial",
   "theorems": [
    "PyG2P.split_command",
    "PyG2P.split_command_netcdf",
    "PyG2P.split_command_two",
    "PyG2P.split_command_netcdf_two",
    "PyG2P.split_table",
    "PyG2P.triangulation_pieces",
    "PyG2P.triangulation_small_piece",
    "PyG2P.split_nearest_command",
    "PyG2P.split_many_command",
    "PyG2P.split_small_command"
   ],
   "note": "Violated: `nearest` never works in pieces; 0 pieces or more pieces than rows of the target fail; `triangulation` fails when one piece (for instance the shorter last one) has some cells but fewer than 250. Holds for inverse distances, triangulation with large pieces and the methods of the GRIB library, which ignore the number of pieces."
  },
  {
   "property": "C185",
   "status": "partial",
   "theorems": [
    "PyG2P.api_tables_as_command",
    "PyG2P.api_after_command",
    "PyG2P.api_first_run",
    "PyG2P.api_grib_fails",
    "PyG2P.api_two_tables_as_command",
    "PyG2P.api_two_grib_fails"
   ],
   "note": "Violated with the methods of the GRIB library: an API run never has the message its table would be made from, so it cannot create a table and fails in the library; half weights are ignored (C182). Everything else holds."
  },
  {
   "property": "C186",
   "status": "partial",
   "theorems": [
    "PyG2P.api_dict_as_command",
    "PyG2P.command_as_api_dict",
    "PyG2P.api_dict_tables",
    "PyG2P.command_as_api_dict_tables",
    "PyG2P.api_dict_parallel_default",
    "PyG2P.api_dict_no_output",
    "PyG2P.api_dict_needs_steps",
    "PyG2P.api_dict_needs_steps_tables"
   ],
   "note": "Proved for settings without half weights, which the API ignores (C182). Given the parsed options and the sections of the command file: whatever maps a command writes, the API run returns (up to NaN inside the clone, which the API keeps: C182); conversely what the API returns a PCRaster command with a usable output folder and whole numbers for the map names writes, and an error of the API is the error of the command; with tables found or created (SciPy methods, folder of tables not given in the sections, which the API would not read: C92) same maps, same error, same tables, in both directions (with triangles taken as asked for if the dictionary does not say). Violated where the dictionary lacks `start` or `end`, optional on a command line: KeyError (api_dict_needs_steps). Missing: GRIB-method tables (C185), the netCDF files of the command."
  },
  {
   "property": "C19",
   "status": "partial",
   "theorems": [
    "PyG2P.C19_cut_off_partial",
    "PyG2P.C19_mask_dropped"
   ],
   "note": "everything but the mask; the mask is dropped (witness)"
  },
  {
   "property": "C20",
   "status": "partial",
   "theorems": [
    "PyG2P.C20_correction_partial",
    "PyG2P.C20_surface_height",
    "PyG2P.C20_gem_missing_used"
   ],
   "note": "with respect to the numbers the code compares with; cells outside the geopotential grid are corrected with garbage (witness)"
  },
  {
   "property": "C21",
   "status": "partial",
   "theorems": [
    "PyG2P.C21_settings_partial",
    "PyG2P.C21_stale"
   ],
   "note": "false when formula, geopotential or target change for the same grid and DEM (witness)"
  },
  {
   "property": "C22",
   "status": "proved",
   "theorems": [
    "PyG2P.C22_equality",
    "PyG2P.C22_dictionary",
    "PyG2P.C22_order"
   ],
   "note": ""
  },
  {
   "property": "C23",
   "status": "partial",
   "theorems": [
    "PyG2P.C23_grid_id_partial",
    "PyG2P.C23_minus_zero"
   ],
   "note": "see the theorem's side conditions; -0.0 longitudes give two identifiers for one grid (witness)"
  },
  {
   "property": "C24",
   "status": "proved",
   "theorems": [
    "PyG2P.C24_first_step",
    "PyG2P.C24_append",
    "PyG2P.C24_conversion"
   ],
   "note": "for an appended set without a second resolution of its own, which is the only use in the code"
  },
  {
   "property": "C25",
   "status": "partial",
   "theorems": [
    "PyG2P.C25_reference_hour_partial",
    "PyG2P.C25_violated",
    "PyG2P.C25_morning_hours",
    "PyG2P.C25_hour_read"
   ],
   "note": "true for dataTime >= 1000 (and midnight as stated); false for morning hours (witness)"
  },
  {
   "property": "C26",
   "status": "partial",
   "theorems": [
    "PyG2P.C26_scan_exact_partial",
    "PyG2P.C26_violated"
   ],
   "note": "exact when the requested short names are distinct; with an upper-case parameter name the program asks for the same name twice and each message is selected twice (witness)"
  },
  {
   "property": "C27",
   "status": "partial",
   "theorems": [
    "PyG2P.C27_fallback_partial",
    "PyG2P.C27_no_messages",
    "PyG2P.C27_violated"
   ],
   "note": "index mode; for a file that cannot be indexed the retry finds nothing (witness)"
  },
  {
   "property": "C28",
   "status": "proved",
   "theorems": [
    "PyG2P.C28_time_axis",
    "PyG2P.C28_info"
   ],
   "note": ""
  },
  {
   "property": "C29",
   "status": "partial",
   "theorems": [
    "PyG2P.C29_grouping_partial",
    "PyG2P.C29_violated",
    "PyG2P.C29_overwritten"
   ],
   "note": "true when first-resolution messages come first and step keys are distinct; otherwise messages are dropped (witness) or overwritten"
  },
  {
   "property": "C30",
   "status": "partial",
   "theorems": [
    "PyG2P.C30_no_misuse_partial",
    "PyG2P.C30_all_released_partial",
    "PyG2P.C30_leak",
    "PyG2P.C30_use_after_release",
    "PyG2P.C30_close_twice",
    "PyG2P.C30_mark"
   ],
   "note": "no double release and no use after release unless auxiliary handles are asked for after close; everything released with at most one selection; a second selection leaks (witness)"
  },
  {
   "property": "C31",
   "status": "partial",
   "theorems": [
    "PyG2P.C31_history_partial",
    "PyG2P.C31_violated"
   ],
   "note": "index mode; in plain-file mode a second scan finds nothing (witness)"
  },
  {
   "property": "C32",
   "status": "partial",
   "theorems": [
    "PyG2P.C32_precedence_partial",
    "PyG2P.C32_command_line_wins",
    "PyG2P.C32_violated",
    "PyG2P.C32_json_zero",
    "PyG2P.json_fraction",
    "PyG2P.text_number",
    "PyG2P.text_not_number",
    "PyG2P.option_true",
    "PyG2P.force_zero"
   ],
   "note": "false for -f 1, -x 1, -F notset, empty strings (JSON wins) and for JSON numbers 0 (ignored)"
  },
  {
   "property": "C33",
   "status": "partial",
   "theorems": [
    "PyG2P.C33_checks_partial",
    "PyG2P.C33_zero_end_accepted",
    "PyG2P.C33_dem_code",
    "PyG2P.C33_numeric_level",
    "PyG2P.out_dir",
    "PyG2P.out_dir_empty",
    "PyG2P.unit_time"
   ],
   "note": "false for tend = 0 (not checked), a missing DEM (code 4200 instead of 4300) and a numeric JSON level"
  },
  {
   "property": "C34",
   "status": "proved",
   "theorems": [
    "PyG2P.C34_window"
   ],
   "note": ""
  },
  {
   "property": "C35",
   "status": "partial",
   "theorems": [
    "PyG2P.C35_window_partial",
    "PyG2P.C35_needed_messages_partial",
    "PyG2P.C35_tend_zero",
    "PyG2P.C35_zero_input_step"
   ],
   "note": "false for tend = 0 (ignored) and for files with input step 0"
  },
  {
   "property": "C36",
   "status": "proved",
   "theorems": [
    "PyG2P.C36_aggregation",
    "PyG2P.C36_force_zero"
   ],
   "note": ""
  },
  {
   "property": "C37",
   "status": "partial",
   "theorems": [
    "PyG2P.C37_program_partial",
    "PyG2P.C37_status_partial",
    "PyG2P.C37_readers_closed",
    "PyG2P.C37_netcdf_crash",
    "PyG2P.C37_netcdf_crash_held",
    "PyG2P.C37_ctor",
    "PyG2P.held_after",
    "PyG2P.C37_violated"
   ],
   "note": "false for netCDF runs that fail before the data set is created: AttributeError leaves the program, even when no message is found"
  },
  {
   "property": "C38",
   "status": "partial",
   "theorems": [
    "PyG2P.C38_download_and_check_never_run",
    "PyG2P.C38_no_config_command",
    "PyG2P.C38_config_error",
    "PyG2P.C38_no_commands_file",
    "PyG2P.C38_never_config"
   ],
   "note": "the property is false: proved that no configuration command is ever run"
  },
  {
   "property": "C39",
   "status": "proved",
   "theorems": [
    "PyG2P.conf_load"
   ],
   "note": ""
  },
  {
   "property": "C40",
   "status": "partial",
   "theorems": [
    "PyG2P.conf_files_partial",
    "PyG2P.conf_value_with_equals",
    "PyG2P.conf_line_without_equals"
   ],
   "note": "false for values with a second '=' (cut) and for lines without '=' (IndexError)"
  },
  {
   "property": "C41",
   "status": "partial",
   "theorems": [
    "PyG2P.paths_substituted_partial",
    "PyG2P.paths_undefined_keyError",
    "PyG2P.paths_digit_name_kept",
    "PyG2P.paths_braces",
    "PyG2P.paths_malformed"
   ],
   "note": "an undefined variable gives KeyError instead of code 8000; names with digits are never substituted"
  },
  {
   "property": "C42",
   "status": "proved",
   "theorems": [
    "PyG2P.geopotential_lookup"
   ],
   "note": ""
  },
  {
   "property": "C43",
   "status": "partial",
   "theorems": [
    "PyG2P.geo_registry_partial",
    "PyG2P.geo_reregistered",
    "PyG2P.geo_remove_first_only"
   ],
   "note": "false within one process: a re-added geopotential is registered twice, remove deletes only the first"
  },
  {
   "property": "C44",
   "status": "partial",
   "theorems": [
    "PyG2P.conf_roundtrip_partial",
    "PyG2P.conf_empty_lost"
   ],
   "note": "an empty configuration is written as text and cannot be read at the next start"
  },
  {
   "property": "C45",
   "status": "proved",
   "theorems": [
    "PyG2P.parameter_lookup"
   ],
   "note": ""
  },
  {
   "property": "C46",
   "status": "partial",
   "theorems": [
    "PyG2P.download_partial",
    "PyG2P.download_truncated_forever"
   ],
   "note": "an interrupted download leaves a truncated file that later runs keep"
  },
  {
   "property": "C47",
   "status": "proved",
   "theorems": [
    "PyG2P.boolean_strings"
   ],
   "note": ""
  },
  {
   "property": "C48",
   "status": "partial",
   "theorems": [
    "PyG2P.command_roundtrip_partial",
    "PyG2P.command_without_text",
    "PyG2P.command_flag_misaligned",
    "PyG2P.command_value_split"
   ],
   "note": "false for Command() without text, flags within the text, values with '=' or blanks"
  },
  {
   "property": "C49",
   "status": "partial",
   "theorems": [
    "PyG2P.filename_normalised_partial",
    "PyG2P.filename_not_short",
    "PyG2P.filename_unbounded"
   ],
   "note": "short remainders return the whole name, unbounded and with underscores"
  },
  {
   "property": "C50",
   "status": "partial",
   "theorems": [
    "PyG2P.pcr_names_partial",
    "PyG2P.pcr_name_collision",
    "PyG2P.pcr_name_step_zero"
   ],
   "note": "False as stated: two steps share a file name when prefix and number need more than 11 characters, and with a zero extension step. Proved: below those bounds names are injective and in 8.3 form."
  },
  {
   "property": "C51",
   "status": "proved",
   "theorems": [
    "PyG2P.time_axis"
   ],
   "note": "Time values, units and bounds of every written step."
  },
  {
   "property": "C52",
   "status": "partial",
   "theorems": [
    "PyG2P.netcdf_roundtrip_partial",
    "PyG2P.roundHalfEven_iff",
    "PyG2P.netcdf_full_clone_fails",
    "PyG2P.netcdf_masked_cell_written",
    "PyG2P.netcdf_value_lost"
   ],
   "note": "False as stated (clone maps without missing cells, masked cells, values that pack to the fill value); proved for the others within half a scale step."
  },
  {
   "property": "C53",
   "status": "partial",
   "theorems": [
    "PyG2P.pcr_output_partial",
    "PyG2P.clone_close_value"
   ],
   "note": "False for clone values close to the missing value; proved otherwise."
  },
  {
   "property": "C54",
   "status": "proved",
   "theorems": [
    "PyG2P.grid_of_every_step",
    "PyG2P.two_resolutions_partial"
   ],
   "note": "Both writers."
  },
  {
   "property": "C55",
   "status": "proved",
   "theorems": [
    "PyG2P.new_table_name",
    "PyG2P.tables_never_overwritten"
   ],
   "note": ""
  },
  {
   "property": "C56",
   "status": "partial",
   "theorems": [
    "PyG2P.table_lookup_partial",
    "PyG2P.grib_ignores_compressed",
    "PyG2P.no_global_folder"
   ],
   "note": "Proved for the scipy methods with both folders set. The GRIB methods ignore compressed tables of plain names; without a global folder a registered table without file raises TypeError."
  },
  {
   "property": "C57",
   "status": "proved",
   "theorems": [
    "PyG2P.created_table_reused"
   ],
   "note": "For every history of runs and restarts in between, in one user folder."
  },
  {
   "property": "C58",
   "status": "partial",
   "theorems": [
    "PyG2P.tables_not_shared_partial",
    "PyG2P.table_id_partial",
    "PyG2P.table_id_pixel_size",
    "PyG2P.table_id_latitudes",
    "PyG2P.shadowed_global_table",
    "PyG2P.table_id_form"
   ],
   "note": "Violated: pixel sizes below one are truncated to 0, latitudes of the source grid are not in the identifier, and a table created in the user folder can shadow a global table of the same file name. Proved: identifiers separate mode, grid identifier and target to the digits they contain; without global tables and with one folder no history makes a run use the table of another identifier."
  },
  {
   "property": "C59",
   "status": "partial",
   "theorems": [
    "PyG2P.cache_transparent_partial",
    "PyG2P.cache_stale"
   ],
   "note": "Holds as long as only the program changes table files."
  },
  {
   "property": "C60",
   "status": "partial",
   "theorems": [
    "PyG2P.C60_grib_nearest",
    "PyG2P.C60_grib_invdist",
    "PyG2P.C60_scipy_nearest",
    "PyG2P.C60_scipy_weighted",
    "PyG2P.C60_scipy_mask_lost"
   ],
   "note": "masks are lost with scipy tables (witness)"
  },
  {
   "property": "C61",
   "status": "proved",
   "theorems": [
    "PyG2P.scipy_nearest_output"
   ],
   "note": ""
  },
  {
   "property": "C62",
   "status": "partial",
   "theorems": [
    "PyG2P.scipy_invdist_row_partial",
    "PyG2P.scipy_invdist_output_partial",
    "PyG2P.invdist_beyond_bound"
   ],
   "note": "Holds for targets within the bound; beyond it the cell becomes NaN instead of the missing value."
  },
  {
   "property": "C63",
   "status": "partial",
   "theorems": [
    "PyG2P.grib_nearest_table_partial",
    "PyG2P.grib_nearest_output_partial",
    "PyG2P.grib_nearest_nan"
   ],
   "note": "False for target grids with NaN longitudes: the compressed index arrays of the table lose their alignment. Proved for all other grids and search outcomes."
  },
  {
   "property": "C64",
   "status": "partial",
   "theorems": [
    "PyG2P.grib_invdist_table_partial",
    "PyG2P.grib_invdist_output_partial",
    "PyG2P.weight_antitone",
    "PyG2P.weight_bounds",
    "PyG2P.grib_invdist_bound",
    "PyG2P.grib_invdist_origin_masked"
   ],
   "note": "Weights, alignment and output proved for targets without NaN longitudes and without the coordinate used as the internal fill mark; fields with missing values violate it (grib_invdist_origin_masked)."
  },
  {
   "property": "C65",
   "status": "proved",
   "theorems": [
    "PyG2P.parallel_eq_serial"
   ],
   "note": "Dask is taken to return the chunks in order."
  },
  {
   "property": "C66",
   "status": "partial",
   "theorems": [
    "PyG2P.table_created_partial",
    "PyG2P.parallel_created_partial",
    "PyG2P.small_target_fails",
    "PyG2P.scipy_nearest_created",
    "PyG2P.scipy_invdist_created",
    "PyG2P.bilinear_few_cells",
    "PyG2P.bilinear_many_cells"
   ],
   "note": "False: serial creation divides by zero for 1 to 249 target cells."
  },
  {
   "property": "C67",
   "status": "partial",
   "theorems": [
    "PyG2P.splits_cellwise_partial",
    "PyG2P.splits_invdist_partial",
    "PyG2P.splits_adw",
    "PyG2P.splits_nearest_fail",
    "PyG2P.splits_too_many",
    "PyG2P.splits_cdd_fail",
    "PyG2P.splits_new_rows_fail",
    "PyG2P.cdd_index_split",
    "PyG2P.triangulation_pieces"
   ],
   "note": "Proved for every method that treats cells one by one and for ADW with its reference radius, with at most as many splits as rows; the nearest method and the Hofstra and MixHofstraShepard modes always fail with splits, NewEtAl reads the CDD map at the wrong row."
  },
  {
   "property": "C68",
   "status": "partial",
   "theorems": [
    "PyG2P.adw_weight",
    "PyG2P.adw_radius_partial",
    "PyG2P.adw_radius_documented",
    "PyG2P.adw_radius_four",
    "PyG2P.adw_radius_ten",
    "PyG2P.adw_reference",
    "PyG2P.directional_shift"
   ],
   "note": "The weight function is proved; the radius rule differs from the documented one when exactly 4 or exactly 10 points lie inside the radius."
  },
  {
   "property": "C69",
   "status": "proved",
   "theorems": [
    "PyG2P.new_weight",
    "PyG2P.hofstra_weight",
    "PyG2P.mix_weight",
    "PyG2P.mix_radius"
   ],
   "note": ""
  },
  {
   "property": "C70",
   "status": "proved",
   "theorems": [
    "PyG2P.broadcast_eq_loop"
   ],
   "note": ""
  },
  {
   "property": "C71",
   "status": "proved",
   "theorems": [
    "PyG2P.directional_bound"
   ],
   "note": ""
  },
  {
   "property": "C72",
   "status": "proved",
   "theorems": [
    "PyG2P.bilinear_weights",
    "PyG2P.bilinear_at_corner",
    "PyG2P.bilinear_grid_cell"
   ],
   "note": "For every root the solver may return; exactness statements for exact roots."
  },
  {
   "property": "C73",
   "status": "proved",
   "theorems": [
    "PyG2P.corners_permuted",
    "PyG2P.bilinear_grid_cell"
   ],
   "note": ""
  },
  {
   "property": "C74",
   "status": "partial",
   "theorems": [
    "PyG2P.triangle_test_partial",
    "PyG2P.triangle_test_degenerate",
    "PyG2P.triangle_test_false",
    "PyG2P.convex_test",
    "PyG2P.quadrilateral_test"
   ],
   "note": "False for three points on a line (all points of the line are accepted); proved for proper triangles and for quadrilaterals that pass the convexity test."
  },
  {
   "property": "C75",
   "status": "partial",
   "theorems": [
    "PyG2P.barycentric_weights",
    "PyG2P.triangulation_indexes_partial",
    "PyG2P.triangulation_output_partial",
    "PyG2P.triangulation_first_added",
    "PyG2P.triangulation_constant_lost"
   ],
   "note": "Weights proved. False for the first point added by the periodic extension: its index stays that of the appended missing value."
  },
  {
   "property": "C76",
   "status": "partial",
   "theorems": [
    "PyG2P.sphere_coordinates",
    "PyG2P.rotate_distance",
    "PyG2P.toRegular_distance_partial",
    "PyG2P.toRegular_collapses"
   ],
   "note": "Proved without rotation and for the rotation; the inverse rotation is no rotation unless the longitude of the pole is zero."
  },
  {
   "property": "C77",
   "status": "proved",
   "theorems": [
    "PyG2P.maps_in_time_order",
    "PyG2P.message_order_irrelevant"
   ],
   "note": ""
  },
  {
   "property": "C78",
   "status": "partial",
   "theorems": [
    "PyG2P.two_resolutions_partial",
    "PyG2P.two_resolutions_last_interval",
    "PyG2P.two_resolutions_from_zero",
    "PyG2P.two_resolutions_instant_twice",
    "PyG2P.two_resolutions_crash"
   ],
   "note": "False as stated; the proved part covers aggregations into intervals that end more than one step after the change, and the counterexamples say what is lost otherwise."
  },
  {
   "property": "C79",
   "status": "partial",
   "theorems": [
    "PyG2P.two_resolutions_without_aggregation_partial",
    "PyG2P.two_resolutions_without_aggregation_fail"
   ],
   "note": "False for every input without an aggregation step: TypeError."
  },
  {
   "property": "C80",
   "status": "partial",
   "theorems": [
    "PyG2P.C80_nan_survives_partial",
    "PyG2P.C80_missing_lost"
   ],
   "note": "false for the numeric sentinel (witness); NaN survives the plain average"
  },
  {
   "property": "C81",
   "status": "partial",
   "theorems": [
    "PyG2P.check_conf_partial",
    "PyG2P.check_conf_fails"
   ],
   "note": "always TypeError once a table was created by the program (entry without file name)"
  },
  {
   "property": "C82",
   "status": "partial",
   "theorems": [
    "PyG2P.crash_harmless_partial",
    "PyG2P.crash_dumping",
    "PyG2P.crash_recreate"
   ],
   "note": "Violated: an interruption while the registry is written makes every later start fail (8200); an interruption while a registered table is written again leaves a damaged file that later runs use. Proved for all other interruption points."
  },
  {
   "property": "C83",
   "status": "partial",
   "theorems": [
    "PyG2P.adw_weights_partial",
    "PyG2P.adw_equidistant",
    "PyG2P.cdd_weights_partial",
    "PyG2P.cdd_no_station",
    "PyG2P.cdd_same_direction",
    "PyG2P.cdd_not_exact"
   ],
   "note": "False for degenerate layouts: no finite weight; CDD is not exact at stations."
  },
  {
   "property": "C84",
   "status": "partial",
   "theorems": [
    "PyG2P.directional_longitude_partial",
    "PyG2P.directional_longitude"
   ],
   "note": "False near the meridian where the conventions differ (counterexample); proved when the cell and all its neighbours change by the same number of degrees."
  },
  {
   "property": "C85",
   "status": "partial",
   "theorems": [
    "PyG2P.triangulation_plane_partial",
    "PyG2P.triangulation_south",
    "PyG2P.triangulation_columns"
   ],
   "note": "False for source grids south of the equator and for targets whose rows are no parallels. The integral is any increasing function that vanishes at the equator."
  },
  {
   "property": "C86",
   "status": "partial",
   "theorems": [
    "PyG2P.corner_same_point_partial",
    "PyG2P.corner_equator",
    "PyG2P.corner_far",
    "PyG2P.corner_kept"
   ],
   "note": "False for source points on the equator more than 90 degrees away and for target longitudes above 180."
  },
  {
   "property": "C87",
   "status": "partial",
   "theorems": [
    "PyG2P.cdd_lookup_partial",
    "PyG2P.cdd_lookup_shifted",
    "PyG2P.cdd_cell_partial",
    "PyG2P.cdd_cell_first",
    "PyG2P.cdd_cell_shifted",
    "PyG2P.cdd_value_total",
    "PyG2P.cdd_value_partial",
    "PyG2P.cdd_value_shifted"
   ],
   "note": "Violated: the index is counted from the centre of the first cell, so only in one quarter of a cell the value of that cell is read; in the others that of a neighbour. Proved: the quarter that is right, the shift, and that no lookup fails."
  },
  {
   "property": "C88",
   "status": "partial",
   "theorems": [
    "PyG2P.regular_target_near_partial",
    "PyG2P.rotated_target_far"
   ],
   "note": "False with rotated_target: the target coordinates are not scaled by the radius."
  },
  {
   "property": "C89",
   "status": "partial",
   "theorems": [
    "PyG2P.cdd_options_partial",
    "PyG2P.cdd_options_default",
    "PyG2P.cdd_options_by_position",
    "PyG2P.cdd_options_count",
    "PyG2P.cdd_mode_unknown"
   ],
   "note": "Violated: values are taken by position; other numbers of options and unknown modes end in a plain Python error. Proved: the documented order works."
  },
  {
   "property": "C90",
   "status": "partial",
   "theorems": [
    "PyG2P.top10_partial",
    "PyG2P.top10_may_drop_large"
   ],
   "note": "Violated as far as numpy specifies: argpartition with kth=10 only fixes the place of the largest of the 11 weights. Proved: exactly one weight is dropped and a largest one remains."
  },
  {
   "property": "C91",
   "status": "partial",
   "theorems": [
    "PyG2P.table_ignores_settings",
    "PyG2P.settings_id_partial",
    "PyG2P.table_id_partial"
   ],
   "note": "Violated: CDD map, mode, options and rotated_target are not part of the table identifier. Proved: mode and grids are (C58)."
  },
  {
   "property": "C92",
   "status": "partial",
   "theorems": [
    "PyG2P.api_options_partial",
    "PyG2P.api_section_folder",
    "PyG2P.api_start_required",
    "PyG2P.api_aggregation_partial",
    "PyG2P.api_halfweights",
    "PyG2P.api_fmap",
    "PyG2P.api_no_aggregation"
   ],
   "note": "Violated by halfweights, by folders given in the section Interpolation and by a missing start or end. Proved: every other option but the output format, which an API run does not use; fmap and ext must be given."
  },
  {
   "property": "C93",
   "status": "partial",
   "theorems": [
    "PyG2P.api_as_pcraster_partial",
    "PyG2P.api_nan"
   ],
   "note": "Proved for maps without NaN; a NaN is written as missing value by the command but returned as NaN."
  },
  {
   "property": "C94",
   "status": "partial",
   "theorems": [
    "PyG2P.api_readers_left_open",
    "PyG2P.held_after",
    "PyG2P.api_grib_never_creates"
   ],
   "note": "Violated: readers are never closed, and GRIB tables are never created."
  },
  {
   "property": "C95",
   "status": "partial",
   "theorems": [
    "PyG2P.api_names_partial",
    "PyG2P.api_names_missing"
   ],
   "note": "Violated: only the names of the user's file are listed. Proved: exactly those are."
  },
  {
   "property": "C96",
   "status": "proved",
   "theorems": [
    "PyG2P.bilinear_table",
    "PyG2P.bilinear_rows",
    "PyG2P.direction_check",
    "PyG2P.shape_checks_total"
   ],
   "note": "For every state of the search, every cell before it and every answer of the tree and the solver."
  },
  {
   "property": "C97",
   "status": "partial",
   "theorems": [
    "PyG2P.bilinear_corners_partial",
    "PyG2P.bilinear_substitute_taken",
    "PyG2P.bilinear_few_rows",
    "PyG2P.bilinear_stale_example"
   ],
   "note": "Proved for every search that ends with its shape checks completed and a quadrilateral found. Violated when the retries are used up: corners of the cell before are weighted, or AttributeError for the first cell."
  },
  {
   "property": "C98",
   "status": "partial",
   "theorems": [
    "PyG2P.bilinear_ends_partial",
    "PyG2P.bilinear_rotated_ends",
    "PyG2P.bilinear_hangs"
   ],
   "note": "Proved for rotated source grids, and for every cell for which the third shape check finds nothing; the search does not end when the substitute of that check is the point it rejected."
  },
  {
   "property": "C99",
   "status": "partial",
   "theorems": [
    "PyG2P.bilinear_root",
    "PyG2P.bilinear_found_root",
    "PyG2P.bilinear_residual",
    "PyG2P.bilinear_rotated_no_root"
   ],
   "note": "Proved for source grids that are not rotated (real roots); for rotated ones convexity is not tested and the system may have no solution."
  }
 ]
}