c("C15", "proved", "C15_times C15_conversion_commutes", "the second theorem assumes no aggregated cell happens to equal the missing value (the converter would leave it unconverted)")
c("C17", "proved", "C17_conversion C17_identity", "numexpr is an oracle giving the meaning of the text")
c("C18", "partial", "C18_text_partial C18_violated", "false when 'x=' occurs again in the text (all occurrences are removed)")
c("C19", "partial", "C19_cut_off_partial C19_mask_dropped", "everything but the mask; the mask is dropped (witness)")
c("C20", "partial", "C20_correction_partial C20_surface_height C20_gem_missing_used", "with respect to the numbers the code compares with; cells outside the geopotential grid are corrected with garbage (witness)")
c("C21", "partial", "C21_settings_partial C21_stale", "false when formula, geopotential or target change for the same grid and DEM (witness)")
c("C60", "partial", "C60_grib_nearest C60_grib_invdist C60_scipy_nearest C60_scipy_weighted C60_scipy_mask_lost", "masks are lost with scipy tables (witness)")
c("C80", "partial", "C80_nan_survives_partial C80_missing_lost", "false for the numeric sentinel (witness); NaN survives the plain average")
c("C22", "proved", "C22_equality C22_dictionary C22_order", "")
c("C23", "partial", "C23_grid_id_partial C23_minus_zero", "see the theorem's side conditions; -0.0 longitudes give two identifiers for one grid (witness)")
c("C24", "proved", "C24_first_step C24_append C24_conversion", "for an appended set without a second resolution of its own, which is the only use in the code")
c("C25", "partial", "C25_reference_hour_partial C25_violated C25_morning_hours C25_hour_read", "true for dataTime >= 1000 (and midnight as stated); false for morning hours (witness)")
c("C26", "partial", "C26_scan_exact_partial C26_violated", "exact when the requested short names are distinct; with an upper-case parameter name the program asks for the same name twice and each message is selected twice (witness)")
c("C27", "partial", "C27_fallback_partial C27_no_messages C27_violated", "index mode; for a file that cannot be indexed the retry finds nothing (witness)")
c("C28", "proved", "C28_time_axis C28_info", "")
c("C29", "partial", "C29_grouping_partial C29_violated C29_overwritten", "true when first-resolution messages come first and step keys are distinct; otherwise messages are dropped (witness) or overwritten")
c("C30", "partial", "C30_no_misuse_partial C30_all_released_partial C30_leak C30_use_after_release C30_close_twice C30_mark", "no double release and no use after release unless auxiliary handles are asked for after close; everything released with at most one selection; a second selection leaks (witness)")
c("C31", "partial", "C31_history_partial C31_violated", "index mode; in plain-file mode a second scan finds nothing (witness)")
c("C32", "partial", "C32_precedence_partial C32_command_line_wins C32_violated C32_json_zero json_fraction text_number text_not_number option_true force_zero", "false for -f 1, -x 1, -F notset, empty strings (JSON wins) and for JSON numbers 0 (ignored)")
c("C33", "partial", "C33_checks_partial C33_zero_end_accepted C33_dem_code C33_numeric_level out_dir out_dir_empty unit_time", "false for tend = 0 (not checked), a missing DEM (code 4200 instead of 4300) and a numeric JSON level")
c("C34", "proved", "C34_window", "")
c("C35", "partial", "C35_window_partial C35_needed_messages_partial C35_tend_zero C35_zero_input_step", "false for tend = 0 (ignored) and for files with input step 0")
c("C36", "proved", "C36_aggregation C36_force_zero", "")
c("C37", "partial", "C37_program_partial C37_status_partial C37_readers_closed C37_netcdf_crash C37_netcdf_crash_held C37_ctor held_after C37_violated", "false for netCDF runs that fail before the data set is created: AttributeError leaves the program, even when no message is found")
c("C38", "partial", "C38_download_and_check_never_run C38_no_config_command C38_config_error C38_no_commands_file C38_never_config", "the property is false: proved that no configuration command is ever run")

c("C39", "proved", "conf_load", "")
c("C40", "partial", "conf_files_partial conf_value_with_equals conf_line_without_equals", "false for values with a second '=' (cut) and for lines without '=' (IndexError)")
c("C41", "partial", "paths_substituted_partial paths_undefined_keyError paths_digit_name_kept paths_braces paths_malformed", "an undefined variable gives KeyError instead of code 8000; names with digits are never substituted")
c("C42", "proved", "geopotential_lookup", "")
c("C43", "partial", "geo_registry_partial geo_reregistered geo_remove_first_only", "false within one process: a re-added geopotential is registered twice, remove deletes only the first")
c("C44", "partial", "conf_roundtrip_partial conf_empty_lost", "an empty configuration is written as text and cannot be read at the next start")
c("C45", "proved", "parameter_lookup", "")
c("C46", "partial", "download_partial download_truncated_forever", "an interrupted download leaves a truncated file that later runs keep")
c("C47", "proved", "boolean_strings", "")
c("C48", "partial", "command_roundtrip_partial command_without_text command_flag_misaligned command_value_split", "false for Command() without text, flags within the text, values with '=' or blanks")
c("C49", "partial", "filename_normalised_partial filename_not_short filename_unbounded", "short remainders return the whole name, unbounded and with underscores")
c("C81", "partial", "check_conf_partial check_conf_fails", "always TypeError once a table was created by the program (entry without file name)")

c("C50","partial","pcr_names_partial pcr_name_collision pcr_name_step_zero","False as stated: two steps share a file name when prefix and number need more than 11 characters, and with a zero extension step. Proved: below those bounds names are injective and in 8.3 form.")
c("C51","proved","time_axis","Time values, units and bounds of every written step.")
c("C52","partial","netcdf_roundtrip_partial roundHalfEven_iff netcdf_full_clone_fails netcdf_masked_cell_written netcdf_value_lost","False as stated (clone maps without missing cells, masked cells, values that pack to the fill value); proved for the others within half a scale step.")
c("C53","partial","pcr_output_partial clone_close_value","False for clone values close to the missing value; proved otherwise.")
c("C54","proved","grid_of_every_step two_resolutions_partial","Both writers.")
c("C77","proved","maps_in_time_order message_order_irrelevant","")
c("C78","partial","two_resolutions_partial two_resolutions_last_interval two_resolutions_from_zero two_resolutions_instant_twice two_resolutions_crash","False as stated; the proved part covers aggregations into intervals that end more than one step after the change, and the counterexamples say what is lost otherwise.")
c("C79","partial","two_resolutions_without_aggregation_partial two_resolutions_without_aggregation_fail","False for every input without an aggregation step: TypeError.")

c("C55","proved","new_table_name tables_never_overwritten","")
c("C56","partial","table_lookup_partial grib_ignores_compressed no_global_folder","Proved for the scipy methods with both folders set. The GRIB methods ignore compressed tables of plain names; without a global folder a registered table without file raises TypeError.")
c("C57","proved","created_table_reused","For every history of runs and restarts in between, in one user folder.")
c("C58","partial","tables_not_shared_partial table_id_partial table_id_pixel_size table_id_latitudes shadowed_global_table table_id_form","Violated: pixel sizes below one are truncated to 0, latitudes of the source grid are not in the identifier, and a table created in the user folder can shadow a global table of the same file name. Proved: identifiers separate mode, grid identifier and target to the digits they contain; without global tables and with one folder no history makes a run use the table of another identifier.")
c("C59","partial","cache_transparent_partial cache_stale","Holds as long as only the program changes table files.")
c("C82","partial","crash_harmless_partial crash_dumping crash_recreate","Violated: an interruption while the registry is written makes every later start fail (8200); an interruption while a registered table is written again leaves a damaged file that later runs use. Proved for all other interruption points.")

c("C63","partial","grib_nearest_table_partial grib_nearest_output_partial grib_nearest_nan","False for target grids with NaN longitudes: the compressed index arrays of the table lose their alignment. Proved for all other grids and search outcomes.")
c("C64","partial","grib_invdist_table_partial grib_invdist_output_partial weight_antitone weight_bounds grib_invdist_bound grib_invdist_origin_masked","Weights, alignment and output proved for targets without NaN longitudes and without the coordinate used as the internal fill mark; fields with missing values violate it (grib_invdist_origin_masked).")
c("C65","proved","parallel_eq_serial","Dask is taken to return the chunks in order.")
c("C66","partial","table_created_partial parallel_created_partial small_target_fails scipy_nearest_created scipy_invdist_created bilinear_few_cells bilinear_many_cells","False: serial creation divides by zero for 1 to 249 target cells.")

c("C61","proved","scipy_nearest_output","")
c("C62","partial","scipy_invdist_row_partial scipy_invdist_output_partial invdist_beyond_bound","Holds for targets within the bound; beyond it the cell becomes NaN instead of the missing value.")
c("C67","partial","splits_cellwise_partial splits_invdist_partial splits_adw splits_nearest_fail splits_too_many splits_cdd_fail splits_new_rows_fail cdd_index_split triangulation_pieces","Proved for every method that treats cells one by one and for ADW with its reference radius, with at most as many splits as rows; the nearest method and the Hofstra and MixHofstraShepard modes always fail with splits, NewEtAl reads the CDD map at the wrong row.")
c("C68","partial","adw_weight adw_radius_partial adw_radius_documented adw_radius_four adw_radius_ten adw_reference directional_shift","The weight function is proved; the radius rule differs from the documented one when exactly 4 or exactly 10 points lie inside the radius.")
c("C69","proved","new_weight hofstra_weight mix_weight mix_radius","")
c("C70","proved","broadcast_eq_loop","")
c("C71","proved","directional_bound","")
c("C83","partial","adw_weights_partial adw_equidistant cdd_weights_partial cdd_no_station cdd_same_direction cdd_not_exact","False for degenerate layouts: no finite weight; CDD is not exact at stations.")
c("C84","partial","directional_longitude_partial directional_longitude","False near the meridian where the conventions differ (counterexample); proved when the cell and all its neighbours change by the same number of degrees.")

c("C72","proved","bilinear_weights bilinear_at_corner bilinear_grid_cell","For every root the solver may return; exactness statements for exact roots.")
c("C73","proved","corners_permuted bilinear_grid_cell","")
c("C74","partial","triangle_test_partial triangle_test_degenerate triangle_test_false convex_test quadrilateral_test","False for three points on a line (all points of the line are accepted); proved for proper triangles and for quadrilaterals that pass the convexity test.")
c("C75","partial","barycentric_weights triangulation_indexes_partial triangulation_output_partial triangulation_first_added triangulation_constant_lost","Weights proved. False for the first point added by the periodic extension: its index stays that of the appended missing value.")
c("C76","partial","sphere_coordinates rotate_distance toRegular_distance_partial toRegular_collapses","Proved without rotation and for the rotation; the inverse rotation is no rotation unless the longitude of the pole is zero.")
c("C85","partial","triangulation_plane_partial triangulation_south triangulation_columns","False for source grids south of the equator and for targets whose rows are no parallels. The integral is any increasing function that vanishes at the equator.")
c("C86","partial","corner_same_point_partial corner_equator corner_far corner_kept","False for source points on the equator more than 90 degrees away and for target longitudes above 180.")
c("C88","partial","regular_target_near_partial rotated_target_far","False with rotated_target: the target coordinates are not scaled by the radius.")
c("C87","partial","cdd_lookup_partial cdd_lookup_shifted cdd_cell_partial cdd_cell_first cdd_cell_shifted cdd_value_total cdd_value_partial cdd_value_shifted","Violated: the index is counted from the centre of the first cell, so only in one quarter of a cell the value of that cell is read; in the others that of a neighbour. Proved: the quarter that is right, the shift, and that no lookup fails.")
c("C89","partial","cdd_options_partial cdd_options_default cdd_options_by_position cdd_options_count cdd_mode_unknown","Violated: values are taken by position; other numbers of options and unknown modes end in a plain Python error. Proved: the documented order works.")
c("C90","partial","top10_partial top10_may_drop_large","Violated as far as numpy specifies: argpartition with kth=10 only fixes the place of the largest of the 11 weights. Proved: exactly one weight is dropped and a largest one remains.")
c("C91","partial","table_ignores_settings settings_id_partial table_id_partial","Violated: CDD map, mode, options and rotated_target are not part of the table identifier. Proved: mode and grids are (C58).")
c("C92","partial","api_options_partial api_section_folder api_start_required api_aggregation_partial api_halfweights api_fmap api_no_aggregation","Violated by halfweights, by folders given in the section Interpolation and by a missing start or end. Proved: every other option but the output format, which an API run does not use; fmap and ext must be given.")
c("C93","partial","api_as_pcraster_partial api_nan","Proved for maps without NaN; a NaN is written as missing value by the command but returned as NaN.")
c("C94","partial","api_readers_left_open held_after api_grib_never_creates","Violated: readers are never closed, and GRIB tables are never created.")
c("C95","partial","api_names_partial api_names_missing","Violated: only the names of the user's file are listed. Proved: exactly those are.")
c("C96","proved","bilinear_table bilinear_rows direction_check shape_checks_total","For every state of the search, every cell before it and every answer of the tree and the solver.")
c("C97","partial","bilinear_corners_partial bilinear_substitute_taken bilinear_few_rows bilinear_stale_example","Proved for every search that ends with its shape checks completed and a quadrilateral found. Violated when the retries are used up: corners of the cell before are weighted, or AttributeError for the first cell.")
c("C98","partial","bilinear_ends_partial bilinear_rotated_ends bilinear_hangs","Proved for rotated source grids, and for every cell for which the third shape check finds nothing; the search does not end when the substitute of that check is the point it rejected.")
c("C99","partial","bilinear_root bilinear_found_root bilinear_residual bilinear_rotated_no_root","Proved for source grids that are not rotated (real roots); for rotated ones convexity is not tested and the system may have no solution.")
c("C100","partial","nonConvex_found bilinear_assertion_partial bilinear_assertion_fails","Proved for source points with different coordinates; violated when two source points have the same coordinates.")
c("C101","proved","manipulation_memory aggregation_memory","Array objects with addresses and in-place updates; for every memory, every set of fields and every setting.")
c("C102","proved","quoted_items no_command","For every sequence of words and quoted items.")
c("C103","proved","filename_date filename_date_free filename_plain","Names with one row of eight or more digits, and names without.")
c("C104","partial","netcdf_target_partial netcdf_target_turned","Proved for the order latitude, longitude and, as a refusal, for the opposite order with different lengths. Violated for square maps stored with the longitudes first: they are read transposed.")
c("C105","partial","flipped_id_partial flipped_same_id","Violated for every map with rows less than one degree apart: both maps have the same table identifiers.")
c("C106","partial","written_coords_netcdf written_coords_partial written_coords_gap","Proved for netCDF targets and for regular PCRaster targets without missing cells; a missing cell in the first column gives NaN for its row.")
c("C107","partial","dem_missing_partial dem_missing_corrected dem_float_no_attribute dem_two_marks clone_float_no_attribute","Violated for floating types without attributes (nothing is ever missing) and for two different marks.")
c("C108","partial","target_refused_partial target_candidates target_one_row","Violated: a file with no or several fields ends in UnboundLocalError, one row of cells in IndexError.")
c("C109","proved","geopotential_folder table_folder","For every folder setting and permission; the geopotential must be of a grid not yet registered.")

c("C110","proved","longest_side widest_of_longest","For real angles; the triangulation itself is given.")
c("C111","partial","delaunay_quads","Proved for source grids that are not global (for global ones the indexes are mapped back as in C75). Triangulation, location of the cells and distance tests are given.")
c("C112","proved","delaunay_bounds","For every solver result; the located triangle contains the cell (contract of find_simplex), the missing value is a number and the table names source points (the off-by-one of C75 is excluded by that).")
c("C113","partial","delaunay_fails_iff","Violated: exactly when a cell lies in a triangle numbered above all neighbours of the triangles in use, the run ends in IndexError.")
c("C114","partial","delaunay_order","Violated: a concrete triangulation and two cells.")
c("C115","partial","delaunay_nan","Violated: outside cells become NaN; a NaN missing value makes cells interpolated in a triangle NaN.")
c("C116","partial","delaunay_planes_partial","Proved for rotated source grids and an exact solver; for regular grids the rescaled latitude is used for one kind of cells only.")

c("C117","proved","plain_run interpolate_eq interpolate_fits","PCRaster output, one grid, tables given; reading of the messages and building of the tables are in other properties.")
c("C118","proved","accumulation_run","One grid; every requested end and start available (a missing step 0 counts as zero).")
c("C119","proved","average_run","One grid, without half weights, start different from 0, data reach the end.")
c("C120","proved","conserved_run","One grid, no cut-off and no correction, finite data in unmasked messages, cell made as a weighted sum.")
c("C121","partial","missing_written_partial missing_number_written masked_lost masked_lost_cut","Proved for equal missing values and tables of the GRIB library; violated in general: missing values of coordinates and clone that differ, search-tree tables and cut-off lose missing cells.")
c("C122","partial","formats_agree_partial formats_differ","Proved for equal missing values (all aggregations, one or two grids); violated whenever they differ.")
c("C123","partial","corrected_run_partial missing_corrected height_missing_written","The formula is proved; violated: missing cells are corrected as if they were data, and cells with missing heights get the netCDF fill value.")
c("C124","proved","file_plain_run","Indexed file, messages of one grid (equal Nj) with one missing value; the parameter's name contains a lower-case letter.")
c("C125","proved","file_accumulation_run file_average_run","Indexed file, messages of the parameter with different end steps, on one grid with one missing value; averages without half weights from a start different from 0.")
c("C126","partial","file_none_taken_partial file_no_named file_not_indexed","Proved for indexed files; violated: a file that eccodes cannot index never gives maps, and messages under the parameter's other names are not found if none has exactly its name.")
c("C127","proved","same_point_given_up sides_given_up rows_given_up opposite_given_up","All corners; for the last step, whose triangle test is false for collinear points (C74), corners whose triangles are proper.")
c("C128","partial","global_iff global_copies regular_global regional_not_global dateline_taken_global columns_not_global target_beyond","Proved for regular grids listed by rows from longitude 0 and for regional grids; violated: a regional grid beginning at the date line is taken as global, a global grid listed by columns is not, and target longitudes beyond 180 are left out.")
c("C129","proved","plain_within average_within","One grid; averages without half weights from a start different from 0.")
c("C130","proved","cutoff_nonneg accumulation_nonneg","One grid, no correction (its formula may give any number).")
c("C131","proved","run_repeated first_run","PCRaster output; tables compressed and in the user's folder (a table found only in the global folder can be shadowed, C58).")
c("C132","proved","failed_run failed_maps netcdf_all_or_none","Failures of lookup, interpolation and correction; failures while a file is being written are not modelled.")
c("C133","partial","own_heights registered_heights level_used","Source file and message proved for indexed input; violated: a geopotential of any level in the input counts as surface geopotential, and the second grid of the run gets the same field.")
c("C134","proved","corrected_file_run","Indexed input, messages taken and geopotential each on one grid with one missing value; no cached corrector from an earlier command (C21).")
c("C135","proved","two_grid_accumulation_run","Steps needed available on each grid (a missing step 0 counts as zero). Runs that end exactly one step after the change lose their last interval (C78).")
c("C136","proved","two_grid_average_run","No half weights, start different from 0, step type not accum.")
c("C137","proved","two_file_accumulation_run two_file_average_run","Indexed files, each on one grid, the run ends more than one step after the first message of the second file (see C78); averages without half weights, from a start different from 0.")
c("C138","partial","two_files_without_end two_file_accumulation_run","Violated: the window ends at the last step of the first file, error 3000 if the second file continues it. With an end in the command see C137.")
c("C139","partial","second_missing_kept_partial second_missing_converted","Holds for averages if both files have the same missing value; otherwise missing points of the second file are converted like data.")
c("C140","proved","written_options written_order written_used","argparse of CPython modelled (names, equals signs, attached values, abbreviations, negative numbers); fmap/ext 1, format notset and empty names count as not given (C32).")
c("C141","proved","stray_refused bad_value_refused missing_value_refused no_arguments help_ends","A negative number in scientific notation after an option counts as a missing value (-O -1e-3 is refused, -O=-1e-3 is accepted).")
c("C142","partial","command_options_partial builder_calls_partial log_dir_refused","Violated: with_log_dir sets the option -d, which does not exist, so every such command is refused; see also C48 (no text, switches within the text, values with = or blanks).")
c("C143","proved","command_settings","One input file, PCRaster output (netCDF: C152), no correction of a second grid. Left out: values that count as not given (C32: -f 1, -x 1, -F notset, empty names), 0, '' and false in the command file, settings of a type the program does not expect.")
c("C144","proved","command_plain_run","As C143; indexed GRIB file with the messages taken on one grid with one missing value; table fitting the grid.")
c("C145","proved","command_accumulation_run command_average_run command_no_messages","As C144; needed steps available; averages without half weights and from a start different from 0.")
c("C146","partial","command_bad_line command_help command_unmet command_no_commands","Left out: an empty window that ends at step 0 is not noticed (C33); -W and -K always end with status 1 (C38).")
c("C147","proved","nearest_reach","Exact distances; the tables are created for 0 or at least 250 cells only (C66).")
c("C148","partial","file_bad_hour file_plain_run","Violated: dataTime 0600 is the number 600, its first two digits 60 make no hour, so every run on forecasts of 03:00 to 09:59 ends with ValueError. The run theorems (C124, C125, C134, C137) hold for hours that can be read: 0 and 10 to 23.")
c("C149","proved","netcdf_plain_run","Indexed GRIB file with the messages taken on one grid with one missing value, one reference time and one step unit; table fitting the grid; clone with a missing cell (see C151); formats i1, i2, i4 and f8; scale not 0.")
c("C150","proved","netcdf_accumulation_run netcdf_average_run","As C149; needed steps available, at least one interval; averages without half weights and from a start different from 0.")
c("C151","partial","netcdf_refused netcdf_no_interval","Violated: a clone without missing cells, and a run without any map on a clone with missing cells, end with ValueError where the PCRaster run ends well. The refusals of options hold.")
c("C152","proved","command_netcdf_plain_run","As C143, C144, C149.")
c("C153","proved","command_netcdf_accumulation_run command_netcdf_average_run","As C145, C150.")
c("C154","partial","command_netcdf_no_messages command_netcdf_crash command_netcdf_written","Violated: if the maps cannot be made although the file holds messages of the parameter, the netCDF command ends with AttributeError (C37) whatever the error, also where no message is taken; a format in the command file that is not known too, after all the work. A file without the parameter gives status 0.")
c("C155","proved","two_file_command_settings two_file_command_accumulation_run two_file_command_average_run","As C143, C137; PCRaster output; the table of the second grid is the one of the second file.")
c("C156","partial","two_file_command_without_end","Violated: with a second file that continues the first and no end in the command, nothing is written and the status is 0.")
c("C157","partial","two_file_command_without_aggregation","Violated: uncaught TypeError.")
c("C158","partial","two_file_command_accumulated_from_start","Violated: nothing is written for the steps of the first file.")
c("C159","proved","switch_group ambiguous_refused written_options","Shortened names are one of the ways of writing an option in Spec.Written.")
c("C160","proved","instantaneous_run file_instantaneous_run command_instantaneous_run netcdf_instantaneous_run command_netcdf_instantaneous_run extraction_times","One grid, one missing value; indexed GRIB file; no message is accumulated or averaged.")
c("C161","proved","half_weight_run file_half_weight_run command_half_weight_run netcdf_half_weight_run command_netcdf_half_weight_run","As C144, C152; start different from 0.")
c("C162","proved","change_accumulation_run change_average_run","Indexed GRIB file, the name asked for is the name of the messages; both grids have the same number of points in the model; the run ends more than one aggregation step after the first message of the second grid (otherwise C78).")
c("C163","proved","change_netcdf_accumulation change_netcdf_average","As C162, C150.")
c("C164","proved","two_file_netcdf_accumulation two_file_netcdf_average","As C137, C150; the unit of the steps is that of the first file.")
c("C165","proved","command_change_accumulation_run command_change_average_run command_change_netcdf_accumulation command_change_netcdf_average","As C143, C153, C162.")
c("C166","proved","two_file_command_netcdf_accumulation two_file_command_netcdf_average","As C155, C164.")
c("C167","proved","table_plain_run","Methods nearest and triangulation (not in pieces), invdist, grib_nearest and grib_invdist (also in parallel); indexed input, messages of one grid with one missing value; exact distances; the libraries answer correctly (KNearest, point or four points found, triangle of the cell). The corner that reads the missing value (C75) is part of what triangulation gives.")
c("C168","proved","table_accumulation_run table_average_run","As C167 and C125.")
c("C169","proved","table_missing","Tables not registered; a registered table whose file is missing is C56.")
c("C170","proved","command_table_plain_run","One input file; methods nearest and triangulation (not in pieces), invdist, grib_nearest and grib_invdist (also with `-X`); assumptions of C144 and C167; the folder for tables that the command names is there.")
c("C171","proved","command_table_accumulation_run command_table_average_run","As C170 and C145.")
c("C172","proved","command_table_netcdf_plain_run command_table_netcdf_accumulation_run command_table_netcdf_average_run","As C170, C152, C153.")
c("C173","proved","command_table_missing command_table_netcdf_missing","Tables not registered; a registered table whose file is missing is C56.")
c("C174","proved","tables_kept_bad_line tables_kept_help tables_kept_unmet tables_kept_no_commands tables_kept_no_messages tables_kept_no_messages_two","As C146, C154; the file that is not indexed is C126.")
c("C175","proved","command_tables_accumulation_run command_tables_average_run","As C155, C170; the identifiers of the two grids differ when `$` is written `_` (otherwise both use one table).")
c("C176","proved","command_tables_netcdf_accumulation command_tables_netcdf_average","As C166, C175.")
c("C177","proved","command_average_zero netcdf_average_zero two_file_command_average_zero netcdf_two_average_zero table_average_zero table_netcdf_average_zero table_two_average_zero table_netcdf_two_average_zero","With C145, C153, C155, C161, C166, C171, C172, C175, C176 this says what is written. With two files and netCDF output: same data set stored, or none by either.")
c("C178","partial","command_average_zero_fails netcdf_average_zero_fails table_average_zero_fails hourly_average_fails command_average_zero","Violated: the loop from 0 also wants the interval that ends one step after the end of the run, whose messages are not read: uncaught IndexError (netCDF: AttributeError, C37), no maps, no table created. Hourly averages without a start always fail. Holds in the other cases (C177).")
c("C179","partial","two_file_no_messages two_file_none_taken two_file_netcdf_crash two_file_netcdf_written netcdf_two_refused","Violated: if the maps cannot be made although the first file holds messages of the parameter, or the format is not known, the netCDF command ends with AttributeError (C37) whatever the error, also where no message is taken. The other ends hold.")
c("C180","partial","second_table_missing_accumulation second_table_missing_average first_table_missing_accumulation first_table_missing_average table_missing_netcdf_accumulation table_missing_netcdf_average","Violated: when the second table is missing the maps of the first file have been written before the command ends with status 1; with netCDF output the command ends with AttributeError (C37), nothing stored. Holds with PCRaster output when the first table is missing. The last two groups suppose at least one interval of the first file.")
c("C181","partial","details_text details_complete details_unknown details_names described_usable details_without_conversion details_without_cut","Violated: KeyError for a parameter without `Conversion` (such as the shipped `10u`) and for one with a conversion without `@cutOffNegative` (the shipped `2d`, and the entry the program itself writes at first start), though commands use both. Holds exactly for complete entries; what is described can be used.")
c("C182","partial","api_plain_run api_accumulation_run api_average_run api_as_command api_fails_as_command api_half_weights","Violated: an API run ignores half weights (C92): it returns the maps of the command without them; and where a map has NaN inside the clone it keeps NaN (C93), the file has the missing value of the clone. Everything else holds. One input file, tables known.")
c("C183","partial","api_two_accumulation_run api_two_average_run api_two_as_command api_two_fails_as_command api_two_half_weights","Violated as C182: half weights are ignored, NaN inside the clone is kept. Everything else holds.")
c("C184","partial","split_command split_command_netcdf split_command_two split_command_netcdf_two split_table triangulation_pieces triangulation_small_piece split_nearest_command split_many_command split_small_command","Violated: `nearest` never works in pieces; 0 pieces or more pieces than rows of the target fail; `triangulation` fails when one piece (for instance the shorter last one) has some cells but fewer than 250. Holds for inverse distances, triangulation with large pieces and the methods of the GRIB library, which ignore the number of pieces.")
c("C185","partial","api_tables_as_command api_after_command api_first_run api_grib_fails api_two_tables_as_command api_two_grib_fails","Violated with the methods of the GRIB library: an API run never has the message its table would be made from, so it cannot create a table and fails in the library; half weights are ignored (C182). Everything else holds.")
c("C186","partial","api_dict_as_command command_as_api_dict api_dict_tables command_as_api_dict_tables api_dict_parallel_default api_dict_no_output api_dict_needs_steps api_dict_needs_steps_tables","Proved for settings without half weights, which the API ignores (C182). Given the parsed options and the sections of the command file: whatever maps a command writes, the API run returns (up to NaN inside the clone, which the API keeps: C182); conversely what the API returns a PCRaster command with a usable output folder and whole numbers for the map names writes, and an error of the API is the error of the command; with tables found or created (SciPy methods, folder of tables not given in the sections, which the API would not read: C92) same maps, same error, same tables, in both directions (with triangles taken as asked for if the dictionary does not say). Violated where the dictionary lacks `start` or `end`, optional on a command line: KeyError (api_dict_needs_steps). Missing: GRIB-method tables (C185), the netCDF files of the command.")
