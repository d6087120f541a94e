"""Writes /verif/properties.jsonl. Run: python3 tools/props.py"""
import json, os
P = []
def p(title, statement, quantifier, why, *anchors):
    P.append(dict(id=f"C{len(P)+1:02d}", title=title, statement=statement, quantifier=quantifier,
                  why_tests_cant=why, anchors=list(anchors)))
AG='src/pyg2p/main/manipulation/aggregator.py'
CV='src/pyg2p/main/manipulation/conversion.py'
CR='src/pyg2p/main/manipulation/correction.py'
IN='src/pyg2p/__init__.py'
GR='src/pyg2p/main/readers/grib.py'
CX='src/pyg2p/main/context.py'
CF='src/pyg2p/main/config.py'
MN='src/pyg2p/main/__init__.py'
AP='src/pyg2p/main/api.py'
CT='src/pyg2p/main/controller.py'
WI='src/pyg2p/main/writers/__init__.py'
WN='src/pyg2p/main/writers/netcdf.py'
WP='src/pyg2p/main/writers/pcr.py'
IT='src/pyg2p/main/interpolation/__init__.py'
GL='src/pyg2p/main/interpolation/grib_interpolation_lib.py'
SL='src/pyg2p/main/interpolation/scipy_interpolation_lib.py'
ST='src/pyg2p/util/strings.py'
FI='src/pyg2p/util/files.py'
NU='src/pyg2p/util/numeric.py'
GE='src/pyg2p/util/generics.py'
RN='src/pyg2p/main/readers/netcdf.py'
RP='src/pyg2p/main/readers/pcr.py'
EX='src/pyg2p/exceptions.py'
# --- aggregation -----------------------------------------------------------
p("Accumulation output value",
  "When every multiple of the aggregation step between start-step and end is present in the GRIB, the accumulated map for the interval ending at t equals, in every cell, (value at t - value at t-step) * unitTime / step.",
  "all fields, grid sizes, start, end, aggregation steps, unit times and numbers of messages with the needed steps present",
  "tests fix one file, one step and one range; the loop runs an unbounded number of times over a mutating dictionary", AG+':_accumulation')
p("Accumulation produces exactly the requested intervals",
  "A successful accumulation returns exactly one map per t in start, start+step, ... <= end (start 0 is read as start = step), keyed by the interval (t-step, t) with the resolution and level of the input, and no others.",
  "all inputs on which the accumulation succeeds", "set equality over unbounded ranges; off-by-one ends only show at particular (start,end,step) residues", AG+':_accumulation')
p("Accumulation conserves the total",
  "Summing the accumulated maps and undoing the unitTime/step factor gives the cumulated value at the last interval end minus the value at the first interval start (no water is created or lost between intervals), also when intermediate steps had to be interpolated.",
  "all successful accumulations, any number of intervals", "needs induction on the number of intervals", AG+':_accumulation')
p("Accumulation fills a missing step by linear interpolation",
  "If a needed step is missing, its field is the linear interpolation in time between the nearest available steps before and after it.",
  "all sets of available steps (with at least one before and one after) and all missing steps",
  "the code re-reads a key list that becomes unsorted after the first insertion; the failure depends on the whole history of insertions", AG+':_accumulation')
p("First interval start is interpolated at its own time",
  "If the step at the start of the first interval is missing (and is not 0), the field used for it is the linear interpolation of the neighbouring steps evaluated at that step's own time.",
  "all sets of available steps and all first intervals", "needs a file lacking exactly the first interval's start and a numeric oracle", AG+':_accumulation')
p("Accumulation from step 0",
  "Accumulating from start 0 equals accumulating from start = step; when step 0 is absent it counts as an all-zero field, and with forceZeroArray the step 0 field is replaced by zeros even when present, affecting only the first interval.",
  "all inputs and steps", "equality of two whole runs for every dictionary and range", AG+':_accumulation', AG+':Aggregator.__init__')
p("Cells masked in the GRIB stay masked through aggregation",
  "A cell masked by the GRIB bitmap in a field that contributes to an output map is masked in that output map.",
  "all masks, aggregation types and steps", "mask propagation is per cell and per contributing field; tests use unmasked files", AG+':_accumulation', AG+':_average', AG+':_instantaneous', NU+':get_masks')
p("Average is the mean of the hourly values",
  "The average map of (s, s+step] is the arithmetic mean over the hours h = s+1..s+step of the field valid at h, where the field valid at an hour without a message is that of the next available step.",
  "all fields, step sets, ranges", "nested unbounded loops with a binary search", AG+':_average')
p("Average is bounded by and linear in its inputs",
  "Every averaged cell lies between the smallest and the largest input value of that cell; a constant field averages to itself; averaging commutes with adding fields and scaling.",
  "all finite inputs on which averaging succeeds", "inequalities over all real inputs", AG+':_average')
p("Average from start 0 is the same as from start = step",
  "README: for averages a start step of 0 gives the same result as a start step equal to the aggregation step.",
  "all inputs, ranges, steps", "the extra interval shows only for one residue of end modulo step", AG+':_average', 'README.md')
p("Half-weight average is the trapezoidal rule",
  "With halfweights the average of [s, s+step] weights the available steps by dt, the two ends by dt/2 and divides by the total weight; if the two ends and equally spaced steps are available it equals the trapezoidal integral divided by the length.",
  "all fields and step sets", "weights depend on which steps are present", AG+':_average')
p("Instantaneous extraction",
  "Instantaneous output has exactly one map per t in the requested range and step; it is the field at t if present, zeros at t=0 if absent, otherwise the next available field.",
  "all inputs", "unbounded loop and binary search", AG+':_instantaneous', AG+':_find_start')
p("Aggregations that make no sense are refused",
  "Average and instantaneous extraction of an accumulated parameter (stepType accum) always raise the 'not implemented' application error (6100) and return no maps; accumulation never does.",
  "all inputs", "every input, not one", AG+':do_manipulation')
p("Aggregation never reads past the available data silently",
  "If an output interval needs data after the last available step the run fails with an error instead of producing a map; if the available steps reach the end of the range (and start is at least one step) average and instantaneous always succeed.",
  "all step sets and ranges", "totality over all inputs", AG)
p("Aggregation commutes with linear unit conversion",
  "For a conversion x=x*k and fields without missing values, converting then aggregating equals aggregating then converting, for all three aggregation types.",
  "all fields, all k, all ranges", "equality of two programs on every input", AG, CV)
p("Aggregation does not alter fields it does not own",
  "The fields passed to an aggregation are unchanged afterwards, and each output map depends only on fields at steps inside its own interval or the nearest available steps around it.",
  "all pairs of inputs that agree near an interval", "non-interference over all inputs", AG)
# --- conversion ------------------------------------------------------------
p("Conversion keeps missing values",
  "Converting a field leaves every cell equal to the missing value untouched, applies the configured function to every other cell, and keeps the mask; the identity function changes nothing.",
  "all fields, functions and missing values", "per-cell claim over all values", CV+':Converter.convert')
p("Conversion applies the configured function text",
  "The function evaluated is exactly the configured text after the leading 'x='.",
  "all function strings", "the rewriting acts on arbitrary strings", CV+':Converter.__init__')
p("Negative cut-off",
  "After cut-off no cell of any map is negative, non-negative cells are unchanged, applying it twice changes nothing, the set of maps is unchanged, and masked cells stay masked.",
  "all dictionaries of fields", "all fields and keys", CV+':Converter.cut_off_negative')
# --- correction -------------------------------------------------------------
p("Correction keeps missing cells missing",
  "Corrected values are the formula where the field, the DEM and the geopotential are all valid; where any of them is missing the result is the missing value; masked cells stay masked.",
  "all fields, DEMs, geopotentials and missing values", "depends on which sentinel each array uses", CR+':Corrector.correct')
p("Correction uses the settings of the current run",
  "In one process, the corrector obtained for a run uses that run's DEM, formulas, geopotential file and target grid.",
  "all sequences of runs", "a history property of a process-wide cache", CR+':Corrector.get_instance')
# --- base objects --------------------------------------------------------------
p("Step keys behave as values",
  "Two step keys are equal iff all five components are equal, equal keys hash equally (so they address the same dictionary entry), and sorting by < is a total preorder by start step.",
  "all steps", "algebraic laws", IN+':Step')
p("Grid identifiers distinguish grids",
  "Two grids get the same identifier iff they agree on first/last longitude to four decimals, Ni, Nj, number of values and grid type (with missing keys rendered as M).",
  "all grids", "injectivity of a string rendering over all inputs", IN+':GribGridDetails._build_id')
p("Message sets know their first step and both resolutions",
  "The first step of a message set is the key with the smallest end step; appending a second-resolution set makes the set report a resolution change at that set's first step and keeps all messages of both; conversion is applied to both.",
  "all non-empty message sets", "all sets", IN+':Messages')
p("Reference time of the output",
  "The reference time written with the output is the GRIB dataDate at the hour given by dataTime (HHMM).",
  "all dataTime values 0..2359", "only 0 and 1200 are exercised by tests", IN+':Messages.__init__', GR+':select_messages')
# --- reader ---------------------------------------------------------------------
p("Message selection is exactly the requested filter",
  "The selected messages are, in file order per short name, exactly those for which every requested key is defined and matches (equality, membership or predicate); nothing else is selected and nothing matching is lost.",
  "all files and selections", "soundness and completeness over all files", GR+':_find', GR+':scan_grib')
p("Start-step fallback",
  "If nothing matches and the start-step condition excludes step 0, selection is retried accepting any start step >= 0 with the other conditions unchanged; otherwise the first answer stands; if still nothing, error 3000 is raised.",
  "all files and selections", "all files", GR+':_get_gids', GR+':select_messages')
p("Reported time axis of a file",
  "The reported start is the minimum start step, the end the maximum end step, the step the difference of the two smallest end steps, and a second step is reported iff consecutive differences are not all equal, at the first change.",
  "all message lists", "all lists", GR+':_find_start_end_steps')
p("No message is lost when resolution changes",
  "Every selected message ends up in exactly one of the two resolution groups under its own step key.",
  "all files with one or two resolutions in any order", "order-dependent", GR+':select_messages')
p("GRIB handles are released exactly once",
  "After any sequence of info, selection and close, every message handle obtained by the reader has been released exactly once and none is used after release.",
  "all operation sequences and files", "history property", GR+':GRIBReader')
p("Selection does not depend on earlier scans",
  "Selecting messages gives the same result whether or not the file was scanned before.",
  "all files and histories, in index and in plain-file mode", "history property", GR+':scan_grib')
# --- context ----------------------------------------------------------------------
p("Command line wins over JSON",
  "Every option given on the command line is the one used, whatever the JSON file says; otherwise the JSON value is used, otherwise the documented default.",
  "all combinations of command-line and JSON values", "product of option presence and values", CX+':ExecutionContext._define_exec_params')
p("Invalid runs are refused before any work",
  "A context is accepted only if the input file, coordinate maps, clone map (and DEM when correcting) exist, the interpolation mode is supported, level is a number, tstart <= tend, and correction parameters are complete; each violation yields its documented error code, the first violated check wins.",
  "all parameter sets and file systems", "all combinations of violations", CX+':_check_exec_params', EX)
p("Time window selection",
  "The reader is asked for exactly the messages of the parameter (name, upper-case name, name+'var') with start step >= start and end step <= end, or exactly (start,end) when equal, plus level, date, time and member when given.",
  "all windows and messages", "all windows", CX+':create_select_cmd_for_reader')
p("Aggregation window requested from the reader",
  "With aggregation the reader is asked for messages from max(0, start - step) to end, so every field the aggregation needs and the file has is read; tend given on the command line is honoured.",
  "all parameters", "all parameters", CT+':init_execution', AG+':get_real_start_end_steps')
p("Aggregation switches",
  "Aggregation is done iff both step and type are given; forceZeroArray is on iff type is accumulation and the value is not one of the false strings in any letter case.",
  "all values", "all strings", CX, AP, ST+':FALSE_STRINGS')
p("Process exit status",
  "The program returns 0 iff the run completed or found no messages, 1 for every other application error, and the reader and writer are closed in every case.",
  "all outcomes of every phase", "all failure points", MN+':pyg2p_exe', MN+':execute')
p("Configuration commands work",
  "-g adds the geopotential, -W downloads, -K checks the configuration, each returning 0 on success.",
  "all argument vectors", "control flow over all arguments", MN+':config_command', CX+':_define_input_args')
# --- configuration -------------------------------------------------------------------
p("User configuration overrides global configuration",
  "After loading, looking up a key gives the user's value if the user file defines it, else the global value; the user file is created from the template only when absent and never altered by loading.",
  "all global/user files", "all key sets", CF+':BaseConfiguration.merge_with_user_conf')
p("User variables file parsing",
  "Each KEY=VALUE line of a .conf file defines KEY with exactly VALUE (trimmed); comments and blank lines define nothing; later definitions win.",
  "all file contents", "all strings", CF+':UserConfiguration.load_properties')
p("Path variables are substituted",
  "Every {VAR} in the four path settings is replaced by the user's value; a variable that is not defined is reported with error 8000 naming it.",
  "all strings and variable maps", "all strings", CF+':UserConfiguration.interpolate_strings')
p("Geopotential file lookup",
  "The geopotential used for a grid is the file registered for its identifier in the first of: the -G folder, the user folder, the global folder, in which it exists; 4000 if none is registered, 4200 if no file exists.",
  "all registries and file systems", "all file systems", CF+':GeopotentialsConfiguration.get_filepath', CX+':geo_file')
p("Geopotential registration",
  "Registering never replaces an existing identifier, removing deletes exactly the entry with that file name, and the state on disk always equals the user part in memory after each operation.",
  "all sequences of add/remove/reload", "history property", CF+':GeopotentialsConfiguration.add', CF+':remove', CF+':dump')
p("Configuration survives a save/load round trip",
  "Saving the user configuration and loading it again gives the same entries.",
  "all user configurations including the empty one", "all maps", CF+':BaseConfiguration.dump', CF+':_load')
p("Parameter and conversion lookup",
  "Looking up a conversion returns an entry of that parameter having the requested identifier, or error 1200; unknown parameters give 1100.",
  "all configurations", "all configurations", CF+':ParametersConfiguration')
p("Download never overwrites local files",
  "Downloading a dataset fetches exactly the remote files that are not present locally and leaves existing files unchanged.",
  "all remote listings and local directories", "all listings", CF+':download_data')
# --- strings / command API -----------------------------------------------------------------
p("Boolean strings",
  "A configuration boolean is true iff it is the value true or a non-empty string starting with t/T/y/Y.",
  "all strings", "all strings", ST+':to_boolean')
p("Command objects round-trip to argument vectors",
  "A command built from option/value pairs produces the argument vector with exactly those options and values (sorted, plus log level); string placeholders are replaced; later settings win.",
  "all option lists", "all strings and histories", AP+':Command', ST+':to_argv', ST+':to_argdict')
p("Normalised table file names are short and safe",
  "The source part of an interpolation table file name, when normalised, has at most 10 characters and contains none of '-', '_', '.'; normalisation depends only on the file name.",
  "all file names", "all strings", FI+':normalize_filename')
# --- writers -----------------------------------------------------------------------------------
p("PCRaster map names are 8.3 and distinct",
  "Map i of a run is named prefix, zero padding and number fmap+(i-1)*ext, split 8.3; different maps of a run get different names in the same order.",
  "all prefixes, first numbers, increments and map counts", "collisions appear only for long prefixes/numbers", WI+':_name_pcr_map')
p("NetCDF time axis unit conversion",
  "The times written, in the unit written, denote the same instants as the GRIB steps; the time variable is integer iff all converted times are integers; units that cannot be converted fall back to the GRIB unit with unchanged values.",
  "all step lists and unit pairs", "all pairs of units and values", WN+':write')
p("NetCDF packing keeps missing cells and values",
  "A reader applying the CF attributes gets back every valid value, and sees as missing exactly the cells that are NaN, masked or outside the clone map.",
  "all fields, scale factors, offsets and masks", "all reals", WN+':write', WN+':_mask_values')
p("PCRaster output masking",
  "A written PCRaster map has the missing value exactly in the cells outside the clone, masked, or NaN (or equal to the missing value already), and the original value elsewhere.",
  "all fields and masks", "all fields", WP+':write')
p("Every step is interpolated on its own grid",
  "When the resolution changes, maps before the change step are interpolated with the first grid and maps from the change step on with the second, each step written exactly once in time order.",
  "all step sequences and change steps", "stateful loop", WI+':write_maps', AP+':Pyg2pApi')
# --- interpolator ------------------------------------------------------------------------------------
p("Creating a table never overwrites another",
  "The file name chosen for a new interpolation table does not exist yet, the search for it terminates, and is the first free one.",
  "all directory contents", "unbounded loop over file system state", IT+':_intertable_filename')
p("Table lookup order",
  "A registered table is read from the user folder if it exists there (plain or .gz), else from the global folder, else recreated in the user folder under the registered name, else error 8100 when creation is off.",
  "all registries and file systems", "all file systems", IT+':_intertable_filename')
p("Created tables are reused",
  "After a table was created and registered, interpolating again with the same source grid, target and mode uses the stored table and gives the same result.",
  "all states and inputs", "two-step histories", IT+':update_intertable_conf', IT+':interpolate_scipy', IT+':grib_nearest')
p("Table identifiers separate source grid, target grid and method",
  "Two runs share a table only if their source grid, target grid and interpolation mode coincide.",
  "all grids, maps and modes", "injectivity over all inputs", IT+':_intertable_filename', RP+':identifier', RN+':identifier')
p("The in-memory table cache is transparent",
  "Reading a table gives the content of its file, whatever was read before in the process.",
  "all sequences of reads and writes", "history property", IT+':_read_intertable')
p("Table application",
  "Applying a table gives in each target cell the weighted sum of the source values it lists (the source value itself for nearest); cells listed as unreachable get the missing value; masked source values mask the cells that use them.",
  "all tables and fields", "all fields", IT+':_interpolate_scipy_append_mv')
p("Nearest-neighbour interpolation returns source values",
  "Every output cell of nearest-neighbour interpolation is the value of the source point at minimal distance, or missing if that distance exceeds the bound.",
  "all source/target point sets", "all geometries", SL+':_build_nn')
p("Inverse distance weights",
  "Inverse-distance weights are non-negative, sum to one, decrease with distance; a target coinciding with a source point takes exactly its value; results lie between the min and max of the neighbours; targets beyond the bound are missing.",
  "all distances and values", "all reals", SL+':_build_weights_invdist')
p("GRIB nearest table alignment",
  "Each entry of the nearest table pairs a target cell with the source index returned for that same cell's coordinates; cells with missing coordinates or outside the grid appear nowhere and are missing in the output.",
  "all target grids and nearest-search outcomes", "alignment of arrays filtered separately", GL+':grib_nearest')
p("GRIB inverse distance table",
  "Each entry of the table pairs a target cell with four source indexes and weights that are non-negative and sum to one, exact hits use only the hit point; entries stay aligned whatever cells fail.",
  "all target grids and search outcomes", "alignment of ten arrays filtered separately", GL+':grib_invdist', GL+':_compute_coeffs_and_idxs')
p("Parallel table creation equals serial creation",
  "The parallel versions produce the same tables as the serial ones, for any chunking.",
  "all grids, chunk counts and search outcomes", "all partitions", GL+':grib_nearest_parallel', GL+':grib_invdist_parallel')
p("Table creation works for every target size",
  "Creating a table works for every number of target cells.",
  "all target sizes", "progress bar arithmetic divides by a step that can be 0", GE+':progress_step_and_backchar', GL, SL)
# --- scipy lib -------------------------------------------------------------------------------------
p("Splitting the target does not change the result",
  "Computing weights in num_of_splits pieces gives the same result as in one piece.",
  "all target sizes and split counts", "all partitions", SL+':interpolate')
p("ADW distance weights",
  "Shepard's distance weights are non-negative, non-increasing and continuous in the distance, vanish beyond the search radius, and the radius follows the documented 4-to-10 neighbours rule.",
  "all distances", "all reals", SL+':_build_weights_invdist')
p("CDD distance weights",
  "Hofstra and NewEtAl weights lie in (0,1] and decrease with distance; the mixed Hofstra/Shepard weight is continuous where the two formulas meet and zero beyond the radius.",
  "all distances and CDD values", "all reals", SL+':_build_weights_invdist')
p("Directional weighting: broadcasting equals looping",
  "The use_broadcasting option changes only speed: the directional factors computed by the broadcasting code equal those of the loop.",
  "all neighbour counts and positions", "index arithmetic for all sizes", SL)
p("Directional factors are bounded",
  "The directional factor of every neighbour lies between 0 and 2 so final weights are non-negative.",
  "all positions", "all reals", SL)
p("Bilinear weights",
  "Bilinear weights computed from in-range parameters are non-negative, sum to one, reproduce a constant field and reproduce the corner value at a corner.",
  "all parameters in [0,1]", "all reals", SL+':_build_weights_bilinear')
p("Corner ordering is a permutation",
  "Ordering the four corners clockwise returns the same four points.",
  "all point quadruples", "all reals", SL+':get_clockwise_points')
p("Point in triangle/quadrilateral test",
  "The point-in-triangle test accepts exactly the points of the closed triangle, whatever the orientation.",
  "all triangles and points", "all reals", SL+':isPointInTriangle', SL+':isPointInQuadrilateral')
p("Triangulation weights",
  "Barycentric weights sum to one, reproduce the target point and any affine field; indices created by periodic extension are mapped back to the original source point.",
  "all triangles and points, all grids", "all reals; off-by-one at one index", SL+':_build_weights_triangulation')
p("Spherical coordinates",
  "The 3-d coordinates of every grid point lie on the sphere of the given radius, so chord distance is a function of the angle; rotating a grid preserves distances.",
  "all coordinates", "all reals", SL+':to_3d')
# --- controller / end to end ---------------------------------------------------------------------------
p("Output maps are written in time order",
  "Maps are written in non-decreasing end-step order, one per aggregated step, whatever the order of the messages in the file.",
  "all message orders", "all permutations", CT+':execute')
p("Two-resolution runs cover the whole range",
  "With a resolution change the first part is aggregated up to the change and the second part from the first full interval after the change; no interval is produced twice.",
  "all change steps, ranges and aggregation steps", "all parameters", CT+':execute', CT+':second_res_manipulation')
p("Two-resolution runs without aggregation output both resolutions",
  "Without aggregation, messages of both resolutions are written.",
  "all two-resolution inputs", "all inputs", CT+':execute')
p("Missing-value sentinel survives aggregation",
  "A cell equal to the GRIB missing value (no bitmap) in a contributing field is missing in the aggregated output.",
  "all fields", "per cell over all values", AG, CT)
p("Checking the configuration cleans up the interpolation table registry",
  "Checking the configuration removes from the registry exactly the user-made interpolation tables whose file is gone, keeps all others and completes.",
  "all registries and directories", "all registry contents", 'src/pyg2p/main/config.py:GlobalConf.check_conf')
p("An interrupted table creation does not spoil later runs",
  "When a run that creates an interpolation table is interrupted at any point, the program still starts afterwards, later runs of that table succeed with a complete table, and runs with other tables are unaffected.",
  "all interruption points, stores and runs", "every crash point", IT+':interpolate_scipy', IT+':update_intertable_conf', CF+':UserConfiguration.dump')
p("Angular-distance weights of a cell",
  "For every target cell the ADW and CDD methods give finite weights that are not negative and sum to one, and a cell that coincides with a station takes the value of that station.",
  "all stations and targets", "all reals; degenerate station layouts", SL+':_build_weights_invdist')
p("Longitude convention",
  "Giving the same stations with longitudes in 0..360 or in -180..180 does not change the interpolated value.",
  "all stations and targets", "all pairs of equivalent inputs", SL+':_build_weights_invdist', SL+':adw_and_cdd_compute_weights_directional_in_broadcasting')
p("Triangulation uses one plane for source and target",
  "The triangulation method maps source points and target cells to its plane by the same function, each cell by its own latitude, so a target that coincides with a source point is given its value.",
  "all grids", "all reals", SL+':_build_weights_triangulation')
p("Corner coordinates denote the source points",
  "The latitude and longitude the bilinear method uses in the plane for a source point denote that source point on the globe, also across a pole or the date line, and lie within 90 degrees of longitude of the target.",
  "all targets and source points", "all reals; boundary at the equator, the poles and the date line", SL+':get_correct_lats_lons')
p("Correlation length of a station is read at the station",
  "The NewEtAl CDD method uses for each station the value of the CDD map cell that contains the station.",
  "all maps and stations", "all reals; rounding at cell boundaries", SL+':cdd_newetal_compute_weights_from_cutoff_distances')
p("Nearest source points on rotated and regular grids",
  "With and without the rotated_target option, the source points used for a target cell are those nearest to it on the globe.",
  "all poles, targets and source points", "all reals", SL+':to_3d', SL+':interpolate_split')
p("CDD options are taken by name",
  "The options of the MixHofstraShepard mode apply by their names, in whatever order or selection the command file gives them, and an unknown CDD mode is reported as an application error.",
  "all option objects and mode strings", "all orders and subsets of keys", SL+':_build_weights_invdist')
p("OnlyTOP10 keeps the ten largest weights",
  "With weights_mode OnlyTOP10 each cell keeps its ten largest weights and loses the smallest one.",
  "all weights, every behaviour numpy documents for argpartition", "depends on an unspecified order", SL+':_build_weights_invdist')
p("A table is used only with the settings it was made for",
  "A run uses an existing interpolation table only when the settings that decide the weights (method, CDD map, mode and options, rotated_target, grids) are those the table was computed with.",
  "all settings and histories of runs", "all pairs of settings and histories", IT+':_intertable_filename')
p("API takes the same options as the command",
  "An ApiContext built from a dictionary gives every option the value a pyg2p command with the same options and the same command file sections gets (with the same defaults).",
  "all options and sections", "all combinations of given, missing and empty values", 'src/pyg2p/main/api.py:ApiContext._define_exec_params')
p("API returns what the command writes",
  "Pyg2pApi.execute returns one map per output step, in time order, and each map is cell by cell the one the command writes for that step.",
  "all inputs, masks and steps", "all arrays and masks", 'src/pyg2p/main/api.py:Pyg2pApi.execute')
p("API runs behave like commands",
  "An API run releases the files it opened and creates missing interpolation tables when asked to, as the command does.",
  "all runs and failure points", "all failure points and histories", 'src/pyg2p/main/api.py:Pyg2pApi.execute')
p("API lists all configured parameters",
  "Pyg2pApi.parameter_details() lists every parameter name that can be used.",
  "all configurations", "all configurations", 'src/pyg2p/main/api.py:Pyg2pApi.parameter_details')
p("Bilinear weights of every cell",
  "Every row the bilinear method stores has four non-negative weights summing to 1 for four source points, or marks the cell as left out (first weight NaN, others 0); this holds whatever the solver returns.",
  "all targets, sources, solver answers and earlier cells", "all geometries and histories of cells", SL+':_build_weights_bilinear')
p("Bilinear corners surround their own cell",
  "The four source points weighted for a cell by the bilinear method are points around that cell: the cell lies in their quadrilateral.",
  "all target and source grids", "all geometries; depends on the cells processed before", SL+':_build_weights_bilinear', SL+':getWrongPointBestGridLikeShape')
p("Bilinear table creation ends",
  "Building the table of the bilinear method ends for every target and source grid.",
  "all geometries", "termination over all inputs", SL+':_build_weights_bilinear')
p("Bilinear weights are determined",
  "When the bilinear method has found corners around a cell, the system for the weights has exactly one solution, and an inexact solution changes the value of a field that is affine in latitude and longitude by no more than the residual times its gradient.",
  "all quadrilaterals and targets inside", "all reals", SL+':_functionAlphaBeta', SL+':isConvexQuadrilateral')
p("Bilinear corner search never fails its own assertion",
  "When the corners of a cell are not convex a vertex to replace is found, so building the table never ends in an AssertionError.",
  "all corner positions, all source grids", "all geometries, including degenerate ones", SL+':getNonConvexVertex', SL+':get_angle')
p("Manipulation never changes the fields read",
  "Conversion, aggregation and cut-off never change an array that existed before, also when they end in an error; every resulting map is an array of its own, shared neither with the fields read nor with another map, and holds the converted, aggregated and cut values.",
  "all sets of fields in memory, also fields that share one array; all settings", "aliasing over all memory layouts", AG+':Aggregator.do_manipulation', 'src/pyg2p/main/manipulation/conversion.py:Converter')
p("Quoted items of a command text are kept as they were written",
  "When a command is built from a text, an item in double quotes becomes one argument with exactly the characters between the quotes, blanks included and doubled quotes halved; plain words are one argument each; an empty text is refused with IndexError.",
  "all sequences of words and quoted items, of any length", "all texts", 'src/pyg2p/util/strings.py:to_argv')
p("Table names do not depend on the date in the file name",
  "The part of a table identifier taken from a file name is the same for two names that differ only in their extension and in a date of eight to ten digits; longer rows of digits lose whole tens, and names without a date keep their first ten letters in lower case.",
  "all names, dates and extensions", "all texts", 'src/pyg2p/util/files.py:normalize_filename', 'src/pyg2p/util/files.py:without_ext')
p("Coordinates of a netCDF target map",
  "With a netCDF map as target every cell gets the latitude and the longitude that the file's coordinate variables give it, whatever the order of the dimensions; a map for which this is impossible is refused.",
  "all netCDF files with coordinate variables, all sizes and orders of dimensions", "all files and sizes", 'src/pyg2p/main/readers/netcdf.py:NetCDFReader', 'src/pyg2p/main/interpolation/latlong.py:LatLong')
p("A map stored upside down has its own tables",
  "A target map and the same map with its rows in the opposite order never share an interpolation table.",
  "all netCDF target maps", "all maps", 'src/pyg2p/main/readers/netcdf.py:NetCDFReader.identifier', 'src/pyg2p/main/interpolation/__init__.py:Interpolator')
p("Coordinates of the netCDF output",
  "The coordinate variables of a netCDF output file place every cell at the latitude and longitude used to interpolate it.",
  "all target maps, netCDF and PCRaster", "all maps, also with missing cells or curved rows", 'src/pyg2p/main/writers/netcdf.py:NetCDFWriter.write', 'src/pyg2p/main/interpolation/latlong.py:LatLong')
p("Missing heights of a netCDF DEM",
  "A cell that is missing in a netCDF DEM (by missing_value, _FillValue or the default fill value of its type) is set to the missing value by the correction, and only such a cell.",
  "all attributes, types and heights", "all files", 'src/pyg2p/main/readers/netcdf.py:NetCDFReader', 'src/pyg2p/main/interpolation/latlong.py:Dem', 'src/pyg2p/main/manipulation/correction.py:Corrector.correct')
p("Unsuitable target maps are refused",
  "A map that cannot serve as target is refused with a documented error code.",
  "all netCDF files", "all files", 'src/pyg2p/main/interpolation/latlong.py:LatLong', 'src/pyg2p/main/readers/netcdf.py:NetCDFReader.find_main_var')
p("Data folders that cannot be written are reported",
  "A geopotential or an interpolation table is stored only when the user's folder is set, exists and can be written; otherwise the error is 8000, 8600 or 8500, and the registry stays as it was.",
  "all folders, permissions and registries", "all file system states", CF+':BaseConfiguration.check_write', CF+':GeopotentialsConfiguration.add', 'src/pyg2p/main/interpolation/__init__.py:Interpolator')
p("The second triangle lies across the longest side",
  "Mode bilinear_delaunay looks for the second triangle of a quadrilateral across a longest side of the triangle of the cell.",
  "all triangles with area", "all triangles, real angles", SL+':ScipyInterpolation._build_weights_triangulation', SL+':get_angle')
p("Every triangle belongs to at most one quadrilateral",
  "In mode bilinear_delaunay one pairing of neighbouring triangles explains the source points of all cells: partners are mutual, every cell uses the four corners of its triangle and its partner, or the three corners of its triangle when the triangle across the longest side is missing or taken.",
  "all triangulations, all targets, any number of cells in any order", "all histories of the pairing loop", SL+':ScipyInterpolation._build_weights_triangulation')
p("bilinear_delaunay stays within the source values",
  "A cell inside the triangulation gets a value between the smallest and the largest source value, whatever the equation solver returns; constant fields are reproduced.",
  "all triangulations, fields, solver results", "all inputs and solver results", SL+':ScipyInterpolation._build_weights_triangulation', IT+':Interpolator.interpolate_scipy')
p("bilinear_delaunay builds a table for every target",
  "Mode bilinear_delaunay builds the table of every target map.",
  "all triangulations and targets", "all inputs", SL+':ScipyInterpolation._build_weights_triangulation')
p("The order of the cells does not matter",
  "In mode bilinear_delaunay the value of a target cell does not depend on the other cells of the target map nor on their order.",
  "all targets", "all orders", SL+':ScipyInterpolation._build_weights_triangulation')
p("Cells outside the source and missing values in bilinear_delaunay",
  "A cell outside the source grid becomes the missing value, and a cell inside does not depend on the missing value.",
  "all targets, fields and missing values", "all inputs", SL+':ScipyInterpolation._build_weights_triangulation', IT+':Interpolator.interpolate_scipy')
p("bilinear_delaunay reproduces planes",
  "A field that is affine in latitude and longitude is reproduced exactly in every cell inside the triangulation.",
  "all triangulations, targets and affine fields", "all inputs, all pairings", SL+':ScipyInterpolation._build_weights_triangulation')
PI = ['src/pyg2p/main/controller.py:Controller.execute', 'src/pyg2p/main/writers/__init__.py:OutputWriter', IT+':Interpolator.interpolate']
p("A run without aggregation, from messages to files",
  "A run on one grid without aggregation writes one PCRaster file per selected message, numbered in order of the end steps; a cell holds the converted, cut-off, interpolated and corrected value of the message, and the clone's missing value outside the clone and for NaN.",
  "all message sets, conversions, tables, masks and names", "whole runs, all inputs", *PI)
p("An accumulation run, from messages to files",
  "An accumulation run writes one PCRaster file per interval in order; a cell holds what the table makes of the converted value at the end minus the converted value at the start of the interval, in the unit time, cut off and corrected as asked.",
  "all message sets with the needed steps, all options and tables", "whole runs, all inputs", AG+':Aggregator.do_manipulation', *PI)
p("An average run, from messages to files",
  "An average run writes one PCRaster file per interval in order; a cell holds what the table makes of the hourly mean of the converted fields of the interval.",
  "all message sets that reach the end, all options and tables", "whole runs, all inputs", AG+':Aggregator.do_manipulation', *PI)
p("Accumulated amounts are conserved in the files",
  "The values of a cell over all files of an accumulation run add up to the change of the field from the first start to the last end at the source points of the cell, weighted as in the table.",
  "all message sets (gaps filled or not), weights, ranges and steps", "sums over runs of any length", AG+':Aggregator.do_manipulation', *PI)
p("Missing in, missing out",
  "A cell without source point, or whose source points are all missing, is written as the clone's missing value.",
  "all message sets, tables, masks and missing values", "whole runs, all inputs", 'src/pyg2p/main/writers/pcraster.py:PCRasterWriter.write', *PI)
p("The two output formats agree",
  "The PCRaster files and the netCDF file of the same run hold the same values: a cell is missing in both or in neither, and numbers are equal up to the packing of the netCDF variable.",
  "all runs, packings and missing values", "whole runs, all inputs", 'src/pyg2p/main/writers/netcdf.py:NetCDFWriter.add_timestep', 'src/pyg2p/main/writers/pcraster.py:PCRasterWriter.write', *PI)
p("Corrected runs",
  "In a run with height correction every cell with a source point and known heights holds the formula of its heights and its interpolated value, and every other cell is missing.",
  "all message sets, formulas, heights and missing values", "whole runs, all inputs", 'src/pyg2p/main/manipulation/correction.py:Corrector.correct', *PI)
RD = 'src/pyg2p/main/readers/grib.py:GRIBReader'
p("From the GRIB file to the maps, without aggregation",
  "A run without aggregation takes from the GRIB file the messages of the parameter in the requested window with the requested level, time, date and member (those up to its end if none starts in it), and writes one map for each, in order of the end steps, made from its converted field.",
  "all files, selections, windows, conversions, tables and masks", "whole runs from file to maps, all inputs", RD+'.select_messages', RD+'.get_grib_info', 'src/pyg2p/main/controller.py:Controller.init_execution', *PI)
p("From the GRIB file to the maps, with aggregation",
  "An accumulation or average run reads the file from one aggregation step before the requested start, and writes one map per interval up to the requested end (or the last step in the file), made from the messages of the file that bound or fill the interval.",
  "all files with the needed steps, selections, windows, options, tables and masks", "whole runs from file to maps, all inputs", RD+'.select_messages', RD+'.get_grib_info', 'src/pyg2p/main/controller.py:Controller.init_execution', *PI)
p("A run reports missing messages exactly when there are none",
  "A run ends with error 3000 exactly when the file holds no message the command asks for, whether or not the file can be indexed.",
  "all files and commands", "all inputs", RD+'.__init__', RD+'.scan_grib', 'src/pyg2p/main/controller.py:Controller.init_execution')
p("Which corners the bilinear method gives up",
  "Of four corners the bilinear method gives up repeated points; otherwise, of those not north and those north of the target, all but the nearest two; then the one off its row by more than a tenth of the distance of the nearest row; then one that lies on the other side of its partner.",
  "all targets, all corners", "all configurations of points", SL+':getWrongPointDirection', SL+':getWrongPointGridLikeShape', SL+':getWrongPointBestGridLikeShape', SL+':ScipyInterpolation._build_weights_bilinear')
p("The triangulation of a global grid has no hole at the date line, that of a regional grid stays regional",
  "A global source grid is recognised and extended so that every longitude lies between neighbouring points; a regional grid is not extended; every target longitude is accepted.",
  "all source grids, all target longitudes", "all grids", SL+':ScipyInterpolation._build_weights_triangulation')
p("Maps stay within the data",
  "In a run without cut-off and correction, a cell whose table entry is a mean of source points holds, in every map, a value between the smallest and the largest converted value of the message (of all messages, for averages) at these points; a constant field is reproduced.",
  "all message sets, tables whose entries are means, masks and options", "whole runs, all inputs", *PI)
p("No negative amounts",
  "With cut-off of negative values, no map holds a negative number other than the missing value; and an accumulation run of amounts that never decrease writes no negative numbers, with or without cut-off.",
  "all message sets, tables with weights that are not negative, masks and options", "whole runs, all inputs", AG+':Aggregator.do_manipulation', *PI)
WR = 'src/pyg2p/main/writers/__init__.py:OutputWriter.write_maps'
IN = 'src/pyg2p/main/interpolation/__init__.py:Interpolator'
p("Running a command again writes the same maps",
  "A run that creates its interpolation tables in the user's folder, or finds them there, makes all its maps with one table for each grid (the one it computed, if it was new); and running it again after any history of other runs and restarts, with or without permission to create tables, writes the same maps and changes neither tables nor registry.",
  "all histories of runs and restarts before and after, all messages, tables and options", "histories of any length", WR, IN+'._intertable_filename', IN+'._read_intertable', IN+'.interpolate_scipy', IN+'.update_intertable_conf')
p("A failed run leaves only complete maps",
  "A PCRaster run that ends with an error has written its first maps as a complete run would: the files of the same run repeated later begin with them; a netCDF run that ends with an error before writing has written no map.",
  "all runs, all points of failure while maps are made, all later histories", "failures at every map", WR, 'src/pyg2p/main/writers/__init__.py:OutputWriter._write_maps_pcraster', 'src/pyg2p/main/writers/__init__.py:OutputWriter._write_maps_netcdf')
CO = 'src/pyg2p/main/manipulation/correction.py:Corrector'
p("Which heights the correction uses",
  "With correction, the surface heights of a grid are made from a surface geopotential on that grid: the one of the input file if it holds one (of the member asked for), else the one of the file configured for the grid; of several, one with the smallest end step.",
  "all input files, configurations, formulas and tables", "all files", CO+'._read_geo', RD+'.has_geopotential', 'src/pyg2p/main/context.py:Context.geo_file')
p("Corrected maps from files",
  "A run with correction writes for every message taken from the input the formula of target height, interpolated converted value and surface height; the surface height is interpolated with the same table from one geopotential message, the same for all maps.",
  "all input and geopotential files on one grid, all options without aggregation", "whole runs, all inputs", CO+'.correct', CO+'._read_geo', *PI)
p("Accumulation over a change of grid",
  "An accumulation run whose input changes its grid, and that ends more than one aggregation step after the change, writes first the intervals up to the change, made from the messages of the first grid with its table and heights, then those from the change on, made from the messages of the second grid with its table and heights; the files are numbered through.",
  "all message sets with the needed steps on each grid, tables, conversions, corrections and masks", "whole runs over two grids, all inputs", 'src/pyg2p/main/controller.py:Controller.execute', *PI)
p("Averages over a change of grid",
  "An average run whose input changes its grid, and that ends more than one aggregation step after the change, writes first the means of the intervals up to the change, made from the messages of the first grid with its table and heights, then those from the change on, made from the messages of the second grid with its table and heights; the files are numbered through.",
  "all message sets that reach the change and the end, tables, conversions, corrections and masks", "whole runs over two grids, all inputs", 'src/pyg2p/main/controller.py:Controller.execute', *PI)
TF = ['src/pyg2p/main/controller.py:Controller.read_2nd_res_messages', 'src/pyg2p/main/controller.py:Controller.execute', 'src/pyg2p/__init__.py:Messages.append_2nd_res_messages']
p("Two input files are joined at the first message of the second",
  "A command with two input files aggregates the messages of the first file up to the start of the first message of the second, and those of the second from its end on; each part is made with the table and heights of its grid, and the files are numbered through.",
  "all pairs of files with the needed steps, windows with an end, options, tables and masks", "whole runs from two files, all inputs", *TF, *PI)
p("A run on two files covers both",
  "Without an end in the command, a run on two input files covers the steps of both files.",
  "all pairs of files", "all pairs of files", 'src/pyg2p/main/controller.py:Controller.init_execution', *TF)
p("Missing points of the second file stay missing",
  "A point that is missing in the messages of the second file is missing in the maps made from them.",
  "all pairs of files and conversions", "all pairs of files, all conversions", 'src/pyg2p/__init__.py:Messages.apply_conversion', *TF)
AP = ['src/pyg2p/main/context.py:ExecutionContext._define_input_args', 'src/pyg2p/main/context.py:ExecutionContext.add_args']
p("Options reach the parameters they name",
  "The options written on a command line, in any order and spelling (-s 6, --start 6, -s=6, --start=6, -s6), set the parameters they name: each parameter has the last value given, read as a number where the option takes one; options not given have their initial value; the order of different options does not matter; the value written is used whatever the command file says.",
  "all sequences of options, spellings and values", "all command lines", *AP)
p("Command lines that make no sense are refused",
  "A word that belongs to no option, an option that does not exist, a value the option does not take (no whole number, not one of the choices), a missing value, and an empty command line are refused with error 10000 wherever they occur.",
  "all command lines around the offending argument", "all command lines", *AP)
p("Command objects run with the options they were given",
  "A command object runs the program with each option at the value it was given last, whichever of its methods set it.",
  "all command texts, placeholders and sequences of settings", "all sequences of settings", 'src/pyg2p/main/api.py:Command', 'src/pyg2p/main/api.py:Command.run', *AP)
CR = ['src/pyg2p/main/__init__.py:pyg2p_exe', 'src/pyg2p/main/__init__.py:execute', 'src/pyg2p/main/context.py:ExecutionContext._define_exec_params', 'src/pyg2p/main/context.py:Context._check_exec_params']
p("Command line and command file together decide the run",
  "A command line and its command file make one request: each option has the value typed last, else the one of the command file, else its default; parameter, conversion, paths with user variables, aggregation, window, member, level, numbering and output folder of the run are those of the request, and the exit status is 0 if all maps are written. Values that count as not given (C32: -f 1, -x 1, -F notset, empty names; 0, '' and false in the command file) are left out.",
  "all command lines with one input file and PCRaster output, command files with settings of the expected types and configurations", "all combinations of sources of the options, whole commands", *CR, *AP)
p("A command without aggregation writes the messages it asks for",
  "A command without aggregation writes one map for every message of the parameter that its options ask for, in the order of the end steps, numbered from the first map number in the given steps, in the output folder, each with what the interpolation table gives for the converted field; the exit status is 0.",
  "all command lines and command files (options as in C143), configurations, indexed GRIB files whose messages in the window are on one grid with one missing value, and tables that fit the grid", "whole commands, all inputs", *CR, *AP, *PI)
p("A command with aggregation writes the aggregated fields",
  "A command that asks for accumulation or averages writes one map per interval of the aggregation step, with the difference (scaled to the unit of time) or the mean of the fields of the interval, converted and interpolated; a command that finds no message writes nothing; both end with status 0.",
  "all command lines and command files (options as in C143; averages from a start different from 0, with half weights see C161), configurations, indexed GRIB files with the needed steps whose messages in the window are on one grid with one missing value, and tables that fit the grid", "whole commands, all inputs", *CR, *AP, *PI)
p("Commands that cannot be run write nothing and say so",
  "A command line that is not accepted, a missing command file, and a request whose input, maps, method, folder, window or DEM is not as it should be end with status 1 and write nothing; asking for help runs nothing.",
  "all command lines, command files and file systems", "all commands", *CR, *AP)
p("Cells in reach of the source grid get a value",
  "With nearest neighbour interpolation, a cell that has a source point within the largest distance between neighbouring source points gets the value of a nearest source point; a cell with no source point within that distance enlarged by 4 parts in the number of rows of the source grid gets the missing value.",
  "all source grids, target grids and fields", "all grids and fields", SL+':ScipyInterpolation.__init__', SL+':ScipyInterpolation._build_nn')
p("Forecasts of every hour can be processed",
  "Whether maps are written does not depend on the hour at which the forecast starts: the messages of a forecast of 06:00 are processed as those of 00:00 or 12:00 are.",
  "all GRIB files and options", "all hours, all runs", 'src/pyg2p/main/readers/grib.py:GRIBReader.select_messages', 'src/pyg2p/__init__.py:Messages.__init__', *PI)
NC = ['src/pyg2p/main/writers/__init__.py:OutputWriter._write_maps_netcdf', 'src/pyg2p/main/writers/netcdf.py:NetCDFWriter.write']
p("The netCDF output holds the maps asked for",
  "A run without aggregation with netCDF output makes one data set with the description, unit, packing and valid range asked for, times relative to the start of the forecast in the unit asked for, and one record for each message of the parameter that the options ask for, in the order of the end steps. A reader finds in each cell what the interpolation table gives for the converted field, exactly or within half a scale unit if packed as integers, and finds it missing outside the clone, where there is no value, and out of the valid range.",
  "all GRIB files, options, tables, masks, packings and units", "whole runs, all inputs", *NC, *PI)
p("The netCDF output holds the aggregated maps",
  "A run with accumulation or averages and netCDF output makes one record per interval of the aggregation step, at the time of its end, from which a reader gets the difference (scaled to the unit of time) or the mean of the fields of the interval, converted and interpolated, with the precision of the packing.",
  "all GRIB files with the needed steps, options, tables, masks, packings and units", "whole runs, all inputs", *NC, *PI)
p("What can be written as PCRaster maps can be written as netCDF",
  "A run whose maps can be written as PCRaster maps can be written as netCDF, on every clone and for every number of maps; only a step unit, value format or number that makes no sense is refused, with KeyError or ValueError.",
  "all runs and output options", "all runs, clones and options", *NC, *PI)
p("A netCDF command stores the messages it asks for",
  "A command without aggregation with netCDF output stores one data set in the output folder, named after prefix and aggregation, with the description of the parameter, the unit of the conversion, and packing, valid range and step unit of the request (typed last, else in the command file, else default), and one record for each message of the parameter that the options ask for, in the order of the end steps, showing the interpolated converted field.",
  "all command lines and command files (options as in C143), configurations, indexed GRIB files whose messages in the window are on one grid with one missing value, and tables that fit the grid", "whole commands, all inputs", *CR, *AP, *NC, *PI)
p("A netCDF command with aggregation stores the aggregated fields",
  "A command that asks for accumulation or averages with netCDF output stores one record per interval of the aggregation step, at the time of its end, showing the difference (scaled to the unit of time) or the mean of the fields of the interval, converted and interpolated.",
  "all command lines and command files (options as in C143; averages from a start different from 0, with half weights see C161), configurations, indexed GRIB files with the needed steps whose messages in the window are on one grid with one missing value, and tables that fit the grid", "whole commands, all inputs", *CR, *AP, *NC, *PI)
p("The status of a command does not depend on the output format",
  "A command whose maps cannot be made ends with the same status whatever the output format: 0 if no message was found, 1 for the other errors of the program.",
  "all commands and formats", "all commands", *CR, *NC, 'src/pyg2p/main/writers/netcdf.py:NetCDFWriter.close')
p("A command with two input files joins them",
  "A command with a second input file and aggregation writes the intervals of the first file up to the start of the first message of the second, then those of the second file from its end on, each with the table of its own file, numbered through, in the output folder, with status 0; every option has the value typed last, else that of the command file, else its default.",
  "all command lines and command files (options as in C143, aggregation as in C137), configurations and pairs of indexed GRIB files with the needed steps, each on one grid, and tables that fit the grids", "whole commands, all inputs", *CR, *AP, *TF, *PI)
p("A command that writes nothing says so",
  "A two-file command that writes no map does not end with status 0.",
  "all commands and pairs of files", "all commands", *CR, *TF)
p("Two input files can be processed without aggregation",
  "A command with two input files and no aggregation writes one map per message of the two files.",
  "all commands and pairs of files", "all commands", *CR, *TF)
p("Accumulated fields of two files are covered from the start",
  "A two-file command with accumulation of messages that are accumulated from the start of the forecast writes the intervals of the first file too.",
  "all commands and pairs of files whose messages start at step 0", "all commands", *CR, *TF)
p("Shortened and grouped options",
  "A long name may be shortened to any beginning that no other long name has (--sta 6, --sta=6, --create); a beginning of two names is refused with error 10000 wherever it stands. Switches may be written together behind one dash, with an option and its value at the end: -BXs6 is -B -X -s6.",
  "all command lines", "all command lines", *AP)
p("Extracted fields are those of the steps asked for",
  "A run that asks for instantaneous fields every so many hours writes one map for every such step up to the end of the window, beginning one step before the requested start (at the start itself if that would not be after 0): each with the converted, interpolated field of the first message at or after that step. As a command it ends with status 0; as netCDF it makes one record per step.",
  "all GRIB files with instantaneous messages that reach the end of the window, options, tables; whole runs and commands", "all message times and windows", 'src/pyg2p/main/manipulation/aggregator.py:Aggregator', *CR, *NC, *PI)
p("Half-weight averages count the ends half",
  "A run that asks for averages with half weights writes one map per interval of the aggregation step with the mean of the converted fields of the messages in the closed interval, where the message at either end counts half and the others fully, NaN if the interval has fewer than two messages. As a command it ends with status 0; as netCDF it makes one record per interval.",
  "all GRIB files with messages that are not accumulated, options with a start different from 0, tables; whole runs and commands", "all message times and windows", 'src/pyg2p/main/manipulation/aggregator.py:Aggregator', *CR, *NC, *PI)
p("One file whose grid changes",
  "A run with accumulation or averages on one GRIB file whose messages are first on one grid and then on another writes the intervals up to the start of the first message of the second grid from the messages of the first grid with its table, then the intervals beginning at the end of that message, up to the end of the run, from the messages of the second grid with its own table; the maps are numbered through.",
  "all indexed GRIB files whose messages in the window are on a first, then on a second grid of as many points, with one missing value and the needed steps on each, options (averages without half weights, from a start different from 0), and tables that fit the grids", "whole runs, all inputs", 'src/pyg2p/main/readers/grib.py:GRIBReader.select_messages', *PI)
p("netCDF output of a file whose grid changes",
  "With netCDF output such a run makes one data set: a record for each interval of the first grid, then one for each interval of the second, at the times at which the intervals end, in the unit asked for; each shows the map of its interval with the precision of the packing.",
  "all files and options of C162, clones with masked cells, packings and units", "whole runs, all inputs", *NC, *PI)
p("netCDF output of two input files",
  "A run with aggregation, two input files and netCDF output makes one data set: a record for each interval of the first file up to the start of the first message of the second, then one for each interval of the second file from its end on, at the times at which the intervals end, in the unit asked for; each shows the field of its interval, interpolated with the table of its own file, with the precision of the packing.",
  "all pairs of indexed GRIB files, each on one grid and with the needed steps, options with accumulation or averages (without half weights, from a start different from 0), clones with masked cells, packings, units, and tables that fit the grids", "whole runs, all inputs", *NC, *TF, *PI)
p("Commands on a file whose grid changes",
  "A command with aggregation on one GRIB file whose grid changes does what C162 (PCRaster, in the output folder, status 0) and C163 (netCDF) say, every option having the value typed last, else that of the command file, else its default.",
  "all command lines and command files (options as in C143), configurations, and files and tables as in C162", "whole commands, all inputs", *CR, *AP, *NC, *PI)
p("Two-file commands with netCDF output",
  "A command with aggregation, a second input file and netCDF output stores the one data set of both files (C164), every option having the value typed last, else that of the command file, else its default.",
  "all command lines and command files (options as in C143, C152), configurations, and pairs of files and tables as in C164", "whole commands, all inputs", *CR, *AP, *TF, *NC, *PI)
p("First run on a grid: maps from the nearest points",
  "A run without aggregation on a grid for which no table is registered, allowed to create tables, ends without error and writes the maps of the selected messages, in which every cell holds what the method gives for the converted field: with nearest neighbour the value of a nearest source point if it is within reach (the largest spacing of the source points enlarged by 4 parts in its rows), else the missing value; with inverse distance the mean of its four nearest points weighted by inverse squares; with triangulation the mean of the corners of its triangle that gives the cell, no value in no triangle or out of reach; with the GRIB library the value of the point found, or the mean of the four points found weighted by inverse distances (a point at distance 0 decides alone, unless the first point of the grid is missing), whether it works in parallel or not. All maps of the run, and those of any later run after any history of runs and restarts, use the same points.",
  "all histories of the tables, all grids (distances), all GRIB files and options as in C124, targets of at least 250 cells (inverse distance: at least one, in any number of pieces up to the rows; GRIB library in parallel: at least one cell for each row)", "all grids, files, histories", IT+':Interpolator.interpolate_scipy', IT+':Interpolator.grib_nearest', IT+':Interpolator.grib_inverse_distance', SL+':ScipyInterpolation', *PI)
p("First run on a grid with aggregation",
  "The same for runs that accumulate or average: every cell of the map of an interval holds what the method gives for the aggregated converted field, and later runs write the same maps.",
  "as C167, with the files and options of C125", "all grids, files, histories", IT+':Interpolator.interpolate_scipy', IT+':Interpolator.grib_nearest', IT+':Interpolator.grib_inverse_distance', SL+':ScipyInterpolation', *PI)
p("A run without table leaves nothing behind",
  "A run that would write a map if its table were there, when no table is registered: without permission to create tables it ends with error 8100; if the registry cannot be written, with the error of that check; if the table cannot be computed, with the error of the method. In each case no map is written, and tables and registry stay as they are. (Nearest neighbour, triangulation, and the GRIB library when not in parallel, cannot compute tables for targets of less than 250 cells: ZeroDivisionError.)",
  "all files, options, methods, states of the tables", "all runs and states", IT+':Interpolator._intertable_filename', IT+':Interpolator.interpolate_scipy', IT+':Interpolator.grib_nearest', *PI)
p("Commands that create their table",
  "A command without aggregation with PCRaster output, allowed to create tables (`-B`), on grids for which no table is registered, ends with status 0 and writes the maps of the selected messages to the output folder; every cell holds what the interpolation method gives for the converted field (C167), corrected for height and shown through the clone. Every later command with the same request, with or without `-B`, after any other runs and restarts, writes the same maps and ends with the same status.",
  "all command lines and command files (options as in C143), configurations, histories of the tables, grids, GRIB files as in C144, targets as in C167", "whole commands, all inputs and histories", IT+':Interpolator._intertable_filename', IT+':Interpolator.interpolate_scipy', *CR, *AP, *PI)
p("Commands with aggregation that create their table",
  "The same for commands that accumulate or average: every cell of the map of an interval holds what the method gives for the aggregated converted field, and later commands with the same request write the same maps.",
  "as C170, with the files and options of C145", "whole commands, all inputs and histories", IT+':Interpolator._intertable_filename', IT+':Interpolator.interpolate_scipy', *CR, *AP, *PI)
p("netCDF commands that create their table",
  "The same with netCDF output: the data set has one record per message or interval, at its time, and shows in every cell, with the precision of the packing, what the method gives for the field of the record; later commands with the same request store the same data set.",
  "as C170 and C171, with the data sets of C152 and C153", "whole commands, all inputs and histories", IT+':Interpolator._intertable_filename', IT+':Interpolator.interpolate_scipy', *CR, *AP, *NC, *PI)
p("Commands without table leave nothing behind",
  "A command that would write maps if its table were there, when no table is registered: if no table can be created, because it is not asked for or the configured folder of tables is not set, missing or not writable (whatever folder the command names), it ends with status 1; if the target has less than 250 cells and the method is nearest neighbour, triangulation, or one of the GRIB library without `-X`, it ends with ZeroDivisionError; with netCDF output it ends in these cases with AttributeError. No map is written, and tables and registry stay as they are.",
  "all command lines and command files (options as in C143), configurations, files, methods, states of the tables", "whole commands, all states", IT+':Interpolator._intertable_filename', *CR, *AP, *NC, *PI)
p("Commands that end early leave the tables alone",
  "Whatever tables and registry there are, and whether or not tables may be created: a command line that is not accepted, a request that lacks something (C146), a missing command file and a configuration command end with status 1; help is printed; a command whose indexed input holds no message of the parameter ends with status 0, in every format and with or without a second input file. Tables and registry stay as they are.",
  "all command lines and command files (options as in C143), configurations, states of the tables, input files", "whole commands, all states", IT+':Interpolator._intertable_filename', *CR, *AP, *PI)
p("Commands with two input files that create both tables",
  "A command with aggregation, PCRaster output and a second input file on another grid, allowed to create tables, when none is registered for either grid, ends with status 0 and writes the maps of C155: first the intervals of the first file, every cell holding what the method gives for its aggregated field on the first grid, then those of the second file, with what the method gives on the second grid. Every later command with the same request, with or without `-B`, after any other runs and restarts, writes the same maps and ends with the same status.",
  "all command lines and command files (options as in C143, C155), configurations, histories of the tables, pairs of grids with different identifiers, pairs of GRIB files as in C155, targets as in C167", "whole commands, all inputs and histories", IT+':Interpolator._intertable_filename', IT+':Interpolator.interpolate_scipy', *CR, *AP, *TF, *PI)
p("netCDF commands with two input files that create both tables",
  "The same with netCDF output: the one data set of both files (C166) shows in every cell, with the precision of the packing, what the method gives for the field of the record on the grid of its file; later commands with the same request store the same data set.",
  "as C175, with the data sets of C166", "whole commands, all inputs and histories", IT+':Interpolator._intertable_filename', IT+':Interpolator.interpolate_scipy', *CR, *AP, *TF, *NC, *PI)
p("Averages without a start begin at the first interval",
  "A command that averages (with or without half weights) and gives no start, or none in the command file, ends in the same way, writes the same maps or data set, and leaves the same tables as the command with the start at the aggregation step, provided the step after the last one of the run (with two input files: after the start of the first message of the second) is not a multiple of the aggregation step. With one or two input files, PCRaster and netCDF output, known tables or a folder of tables.",
  "all command lines and command files (options as in C143), configurations, states of the tables, indexed GRIB files with the messages up to the end on one grid, at different steps, with one missing value and readable dates", "whole commands, all inputs", 'README.md', *CR, *AP, *TF, *NC, *PI)
p("Averages without a start for every end",
  "A command that averages without half weights and gives no start writes the maps of the command that starts at the aggregation step, also when the step after the end of the run is a multiple of the aggregation step; in particular hourly averages need no start.",
  "as C177, one input file, messages that are not accumulated", "whole commands, all inputs", *CR, *AP, *NC, *PI)
p("How commands with two input files end",
  "A command with two input files ends the same way whatever the output format: if the first file holds no message of the parameter, with status 0; if the maps cannot be made, with the status of the error (0 if no message is taken, nothing written); otherwise with status 0 and the maps or the data set, unless the data set is refused for its packing, clone or units, in the cases of one input file.",
  "all command lines and command files (options as in C143, C155), configurations, pairs of input files, formats", "whole commands, all inputs", *CR, *AP, *TF, *NC)
p("One of two tables missing",
  "A command with aggregation and two input files on different grids, when one of the two interpolation tables is missing and cannot be created (not asked for, or the configured folder cannot be used), ends with status 1, writes nothing and leaves tables and registry as they are.",
  "all command lines and command files (options as in C143, C155), configurations, histories of the tables, pairs of files as in C155, PCRaster and netCDF output", "whole commands, all inputs and histories", IT+':Interpolator._intertable_filename', *CR, *AP, *TF, *NC, *PI)
p("The API describes every parameter",
  "For every configured parameter that commands can use, the API gives a description: a line with its short name, description and unit, then one line per conversion, in the order of the configuration, with its identifier, unit, function and cut-off; what is described can be used by a command, with the described values. A name that is not configured is refused with error 1100; without a name the API gives the names of the user's parameters, one per line.",
  "all configurations of parameters (any attribute, or `Conversion`, missing; one conversion or a list), all names", "all configurations", 'src/pyg2p/main/api.py:Pyg2pApi.parameter_details', 'src/pyg2p/main/config.py:ParametersConfiguration.get', 'src/pyg2p/main/config.py:ParametersConfiguration.get_conversion')
p("An API run returns the maps of the command",
  "Running the API on an indexed GRIB file returns the maps the command with the same settings writes: one per message, or per interval of the aggregation, keyed by different steps in the order of their ends (the times of the netCDF data set of the command), each cell holding what the interpolation table gives for the converted and aggregated field, corrected, and outside the clone the missing value of the clone; it fails exactly when the command does, with the same error.",
  "all settings, GRIB files, tables, clones; the values for indexed files with messages on one grid as in C124, C125", "whole runs, all inputs", 'src/pyg2p/main/api.py:Pyg2pApi.execute', 'src/pyg2p/main/api.py:Pyg2pApi._mask_values', *PI)
p("An API run with two input files returns the maps of the command",
  "Running the API with a second input file (`inputFile2`) returns the maps the command with `-i` and `-I` writes: first one for each interval of the first file, then one for each interval of the second, keyed by different steps with the ends of the intervals, in order, each cell holding what the table of its grid gives for the converted and aggregated field, corrected, and outside the clone the missing value of the clone; it fails exactly when the command does, with the same error.",
  "all settings, pairs of GRIB files, tables, clones; the values for indexed files as in C137", "whole runs, all inputs", 'src/pyg2p/main/api.py:Pyg2pApi.execute', 'src/pyg2p/main/api.py:ApiContext._define_exec_params', *TF, *PI)
p("Splitting does not change a run",
  "A command that creates its table and whose file asks for the target grid to be split (`@num_of_splits`) ends in the same way, writes the same maps or data set and leaves the same stored tables as the same command without splitting; also with two input files.",
  "all commands, settings, files, grids, numbers of splits, all stored tables", "whole runs, all inputs", SL+':interpolate', IT+':Interpolator.interpolate_scipy', *CR, *AP)
p("API runs find and create interpolation tables as commands do",
  "An API run that is given the same settings and finds the same stored tables as a command ends in the same way (same error or none), returns the maps the command writes, and leaves the same tables: it creates the table of a new grid when it may, later commands and API runs use that table and give the same maps, and an API run can use the tables made by commands; also with two input files.",
  "all methods of interpolation, stored tables, settings, files, histories of runs and restarts", "whole runs, all inputs and histories", 'src/pyg2p/main/api.py:Pyg2pApi.execute', IT+':Interpolator.grib_nearest', IT+':Interpolator.grib_inverse_distance', IT+':Interpolator.interpolate_scipy', IT+':Interpolator.aux_for_intertable_generation')
p("An API run built from a dictionary returns the maps of the command line",
  "`Pyg2pApi(ApiContext(d)).execute()`, where the dictionary `d` has the options a command line gives and the sections of its command file, returns the maps the command writes, ends with the same error exactly when the command fails, and leaves the same stored tables; also with two input files.",
  "all command lines, command files, configurations, folders, GRIB files, stored tables", "whole programs, all inputs", 'src/pyg2p/main/api.py:ApiContext._define_exec_params', 'src/pyg2p/main/api.py:ApiContext.__init__', 'src/pyg2p/main/api.py:Pyg2pApi.execute', *CR, *AP, *PI)
with open(os.path.join(os.path.dirname(__file__), '..', 'properties.jsonl'), 'w') as f:
    for x in P:
        f.write(json.dumps(x) + '\n')
print(len(P))
