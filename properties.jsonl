{"id": "C01", "title": "Accumulation output value", "statement": "When every multiple of the aggregation step between start-step and end is present in the GRIB, the accumulated map for the interval ending at t equals, in every cell, (value at t - value at t-step) * unitTime / step.", "quantifier": "all fields, grid sizes, start, end, aggregation steps, unit times and numbers of messages with the needed steps present", "why_tests_cant": "tests fix one file, one step and one range; the loop runs an unbounded number of times over a mutating dictionary", "anchors": ["src/pyg2p/main/manipulation/aggregator.py:_accumulation"]}
{"id": "C02", "title": "Accumulation produces exactly the requested intervals", "statement": "A successful accumulation returns exactly one map per t in start, start+step, ... <= end (start 0 is read as start = step), keyed by the interval (t-step, t) with the resolution and level of the input, and no others.", "quantifier": "all inputs on which the accumulation succeeds", "why_tests_cant": "set equality over unbounded ranges; off-by-one ends only show at particular (start,end,step) residues", "anchors": ["src/pyg2p/main/manipulation/aggregator.py:_accumulation"]}
{"id": "C03", "title": "Accumulation conserves the total", "statement": "Summing the accumulated maps and undoing the unitTime/step factor gives the cumulated value at the last interval end minus the value at the first interval start (no water is created or lost between intervals), also when intermediate steps had to be interpolated.", "quantifier": "all successful accumulations, any number of intervals", "why_tests_cant": "needs induction on the number of intervals", "anchors": ["src/pyg2p/main/manipulation/aggregator.py:_accumulation"]}
{"id": "C04", "title": "Accumulation fills a missing step by linear interpolation", "statement": "If a needed step is missing, its field is the linear interpolation in time between the nearest available steps before and after it.", "quantifier": "all sets of available steps (with at least one before and one after) and all missing steps", "why_tests_cant": "the code re-reads a key list that becomes unsorted after the first insertion; the failure depends on the whole history of insertions", "anchors": ["src/pyg2p/main/manipulation/aggregator.py:_accumulation"]}
{"id": "C05", "title": "First interval start is interpolated at its own time", "statement": "If the step at the start of the first interval is missing (and is not 0), the field used for it is the linear interpolation of the neighbouring steps evaluated at that step's own time.", "quantifier": "all sets of available steps and all first intervals", "why_tests_cant": "needs a file lacking exactly the first interval's start and a numeric oracle", "anchors": ["src/pyg2p/main/manipulation/aggregator.py:_accumulation"]}
{"id": "C06", "title": "Accumulation from step 0", "statement": "Accumulating from start 0 equals accumulating from start = step; when step 0 is absent it counts as an all-zero field, and with forceZeroArray the step 0 field is replaced by zeros even when present, affecting only the first interval.", "quantifier": "all inputs and steps", "why_tests_cant": "equality of two whole runs for every dictionary and range", "anchors": ["src/pyg2p/main/manipulation/aggregator.py:_accumulation", "src/pyg2p/main/manipulation/aggregator.py:Aggregator.__init__"]}
{"id": "C07", "title": "Cells masked in the GRIB stay masked through aggregation", "statement": "A cell masked by the GRIB bitmap in a field that contributes to an output map is masked in that output map.", "quantifier": "all masks, aggregation types and steps", "why_tests_cant": "mask propagation is per cell and per contributing field; tests use unmasked files", "anchors": ["src/pyg2p/main/manipulation/aggregator.py:_accumulation", "src/pyg2p/main/manipulation/aggregator.py:_average", "src/pyg2p/main/manipulation/aggregator.py:_instantaneous", "src/pyg2p/util/numeric.py:get_masks"]}
{"id": "C08", "title": "Average is the mean of the hourly values", "statement": "The average map of (s, s+step] is the arithmetic mean over the hours h = s+1..s+step of the field valid at h, where the field valid at an hour without a message is that of the next available step.", "quantifier": "all fields, step sets, ranges", "why_tests_cant": "nested unbounded loops with a binary search", "anchors": ["src/pyg2p/main/manipulation/aggregator.py:_average"]}
{"id": "C09", "title": "Average is bounded by and linear in its inputs", "statement": "Every averaged cell lies between the smallest and the largest input value of that cell; a constant field averages to itself; averaging commutes with adding fields and scaling.", "quantifier": "all finite inputs on which averaging succeeds", "why_tests_cant": "inequalities over all real inputs", "anchors": ["src/pyg2p/main/manipulation/aggregator.py:_average"]}
{"id": "C10", "title": "Average from start 0 is the same as from start = step", "statement": "README: for averages a start step of 0 gives the same result as a start step equal to the aggregation step.", "quantifier": "all inputs, ranges, steps", "why_tests_cant": "the extra interval shows only for one residue of end modulo step", "anchors": ["src/pyg2p/main/manipulation/aggregator.py:_average", "README.md"]}
{"id": "C11", "title": "Half-weight average is the trapezoidal rule", "statement": "With halfweights the average of [s, s+step] weights the available steps by dt, the two ends by dt/2 and divides by the total weight; if the two ends and equally spaced steps are available it equals the trapezoidal integral divided by the length.", "quantifier": "all fields and step sets", "why_tests_cant": "weights depend on which steps are present", "anchors": ["src/pyg2p/main/manipulation/aggregator.py:_average"]}
{"id": "C12", "title": "Instantaneous extraction", "statement": "Instantaneous output has exactly one map per t in the requested range and step; it is the field at t if present, zeros at t=0 if absent, otherwise the next available field.", "quantifier": "all inputs", "why_tests_cant": "unbounded loop and binary search", "anchors": ["src/pyg2p/main/manipulation/aggregator.py:_instantaneous", "src/pyg2p/main/manipulation/aggregator.py:_find_start"]}
{"id": "C13", "title": "Aggregations that make no sense are refused", "statement": "Average and instantaneous extraction of an accumulated parameter (stepType accum) always raise the 'not implemented' application error (6100) and return no maps; accumulation never does.", "quantifier": "all inputs", "why_tests_cant": "every input, not one", "anchors": ["src/pyg2p/main/manipulation/aggregator.py:do_manipulation"]}
{"id": "C14", "title": "Aggregation never reads past the available data silently", "statement": "If an output interval needs data after the last available step the run fails with an error instead of producing a map; if the available steps reach the end of the range (and start is at least one step) average and instantaneous always succeed.", "quantifier": "all step sets and ranges", "why_tests_cant": "totality over all inputs", "anchors": ["src/pyg2p/main/manipulation/aggregator.py"]}
{"id": "C15", "title": "Aggregation commutes with linear unit conversion", "statement": "For a conversion x=x*k and fields without missing values, converting then aggregating equals aggregating then converting, for all three aggregation types.", "quantifier": "all fields, all k, all ranges", "why_tests_cant": "equality of two programs on every input", "anchors": ["src/pyg2p/main/manipulation/aggregator.py", "src/pyg2p/main/manipulation/conversion.py"]}
{"id": "C16", "title": "Aggregation does not alter fields it does not own", "statement": "The fields passed to an aggregation are unchanged afterwards, and each output map depends only on fields at steps inside its own interval or the nearest available steps around it.", "quantifier": "all pairs of inputs that agree near an interval", "why_tests_cant": "non-interference over all inputs", "anchors": ["src/pyg2p/main/manipulation/aggregator.py"]}
{"id": "C17", "title": "Conversion keeps missing values", "statement": "Converting a field leaves every cell equal to the missing value untouched, applies the configured function to every other cell, and keeps the mask; the identity function changes nothing.", "quantifier": "all fields, functions and missing values", "why_tests_cant": "per-cell claim over all values", "anchors": ["src/pyg2p/main/manipulation/conversion.py:Converter.convert"]}
{"id": "C18", "title": "Conversion applies the configured function text", "statement": "The function evaluated is exactly the configured text after the leading 'x='.", "quantifier": "all function strings", "why_tests_cant": "the rewriting acts on arbitrary strings", "anchors": ["src/pyg2p/main/manipulation/conversion.py:Converter.__init__"]}
{"id": "C19", "title": "Negative cut-off", "statement": "After cut-off no cell of any map is negative, non-negative cells are unchanged, applying it twice changes nothing, the set of maps is unchanged, and masked cells stay masked.", "quantifier": "all dictionaries of fields", "why_tests_cant": "all fields and keys", "anchors": ["src/pyg2p/main/manipulation/conversion.py:Converter.cut_off_negative"]}
{"id": "C20", "title": "Correction keeps missing cells missing", "statement": "Corrected values are the formula where the field, the DEM and the geopotential are all valid; where any of them is missing the result is the missing value; masked cells stay masked.", "quantifier": "all fields, DEMs, geopotentials and missing values", "why_tests_cant": "depends on which sentinel each array uses", "anchors": ["src/pyg2p/main/manipulation/correction.py:Corrector.correct"]}
{"id": "C21", "title": "Correction uses the settings of the current run", "statement": "In one process, the corrector obtained for a run uses that run's DEM, formulas, geopotential file and target grid.", "quantifier": "all sequences of runs", "why_tests_cant": "a history property of a process-wide cache", "anchors": ["src/pyg2p/main/manipulation/correction.py:Corrector.get_instance"]}
{"id": "C22", "title": "Step keys behave as values", "statement": "Two step keys are equal iff all five components are equal, equal keys hash equally (so they address the same dictionary entry), and sorting by < is a total preorder by start step.", "quantifier": "all steps", "why_tests_cant": "algebraic laws", "anchors": ["src/pyg2p/__init__.py:Step"]}
{"id": "C23", "title": "Grid identifiers distinguish grids", "statement": "Two grids get the same identifier iff they agree on first/last longitude to four decimals, Ni, Nj, number of values and grid type (with missing keys rendered as M).", "quantifier": "all grids", "why_tests_cant": "injectivity of a string rendering over all inputs", "anchors": ["src/pyg2p/__init__.py:GribGridDetails._build_id"]}
{"id": "C24", "title": "Message sets know their first step and both resolutions", "statement": "The first step of a message set is the key with the smallest end step; appending a second-resolution set makes the set report a resolution change at that set's first step and keeps all messages of both; conversion is applied to both.", "quantifier": "all non-empty message sets", "why_tests_cant": "all sets", "anchors": ["src/pyg2p/__init__.py:Messages"]}
{"id": "C25", "title": "Reference time of the output", "statement": "The reference time written with the output is the GRIB dataDate at the hour given by dataTime (HHMM).", "quantifier": "all dataTime values 0..2359", "why_tests_cant": "only 0 and 1200 are exercised by tests", "anchors": ["src/pyg2p/__init__.py:Messages.__init__", "src/pyg2p/main/readers/grib.py:select_messages"]}
{"id": "C26", "title": "Message selection is exactly the requested filter", "statement": "The selected messages are, in file order per short name, exactly those for which every requested key is defined and matches (equality, membership or predicate); nothing else is selected and nothing matching is lost.", "quantifier": "all files and selections", "why_tests_cant": "soundness and completeness over all files", "anchors": ["src/pyg2p/main/readers/grib.py:_find", "src/pyg2p/main/readers/grib.py:scan_grib"]}
{"id": "C27", "title": "Start-step fallback", "statement": "If nothing matches and the start-step condition excludes step 0, selection is retried accepting any start step >= 0 with the other conditions unchanged; otherwise the first answer stands; if still nothing, error 3000 is raised.", "quantifier": "all files and selections", "why_tests_cant": "all files", "anchors": ["src/pyg2p/main/readers/grib.py:_get_gids", "src/pyg2p/main/readers/grib.py:select_messages"]}
{"id": "C28", "title": "Reported time axis of a file", "statement": "The reported start is the minimum start step, the end the maximum end step, the step the difference of the two smallest end steps, and a second step is reported iff consecutive differences are not all equal, at the first change.", "quantifier": "all message lists", "why_tests_cant": "all lists", "anchors": ["src/pyg2p/main/readers/grib.py:_find_start_end_steps"]}
{"id": "C29", "title": "No message is lost when resolution changes", "statement": "Every selected message ends up in exactly one of the two resolution groups under its own step key.", "quantifier": "all files with one or two resolutions in any order", "why_tests_cant": "order-dependent", "anchors": ["src/pyg2p/main/readers/grib.py:select_messages"]}
{"id": "C30", "title": "GRIB handles are released exactly once", "statement": "After any sequence of info, selection and close, every message handle obtained by the reader has been released exactly once and none is used after release.", "quantifier": "all operation sequences and files", "why_tests_cant": "history property", "anchors": ["src/pyg2p/main/readers/grib.py:GRIBReader"]}
{"id": "C31", "title": "Selection does not depend on earlier scans", "statement": "Selecting messages gives the same result whether or not the file was scanned before.", "quantifier": "all files and histories, in index and in plain-file mode", "why_tests_cant": "history property", "anchors": ["src/pyg2p/main/readers/grib.py:scan_grib"]}
{"id": "C32", "title": "Command line wins over JSON", "statement": "Every option given on the command line is the one used, whatever the JSON file says; otherwise the JSON value is used, otherwise the documented default.", "quantifier": "all combinations of command-line and JSON values", "why_tests_cant": "product of option presence and values", "anchors": ["src/pyg2p/main/context.py:ExecutionContext._define_exec_params"]}
{"id": "C33", "title": "Invalid runs are refused before any work", "statement": "A context is accepted only if the input file, coordinate maps, clone map (and DEM when correcting) exist, the interpolation mode is supported, level is a number, tstart <= tend, and correction parameters are complete; each violation yields its documented error code, the first violated check wins.", "quantifier": "all parameter sets and file systems", "why_tests_cant": "all combinations of violations", "anchors": ["src/pyg2p/main/context.py:_check_exec_params", "src/pyg2p/exceptions.py"]}
{"id": "C34", "title": "Time window selection", "statement": "The reader is asked for exactly the messages of the parameter (name, upper-case name, name+'var') with start step >= start and end step <= end, or exactly (start,end) when equal, plus level, date, time and member when given.", "quantifier": "all windows and messages", "why_tests_cant": "all windows", "anchors": ["src/pyg2p/main/context.py:create_select_cmd_for_reader"]}
{"id": "C35", "title": "Aggregation window requested from the reader", "statement": "With aggregation the reader is asked for messages from max(0, start - step) to end, so every field the aggregation needs and the file has is read; tend given on the command line is honoured.", "quantifier": "all parameters", "why_tests_cant": "all parameters", "anchors": ["src/pyg2p/main/controller.py:init_execution", "src/pyg2p/main/manipulation/aggregator.py:get_real_start_end_steps"]}
{"id": "C36", "title": "Aggregation switches", "statement": "Aggregation is done iff both step and type are given; forceZeroArray is on iff type is accumulation and the value is not one of the false strings in any letter case.", "quantifier": "all values", "why_tests_cant": "all strings", "anchors": ["src/pyg2p/main/context.py", "src/pyg2p/main/api.py", "src/pyg2p/util/strings.py:FALSE_STRINGS"]}
{"id": "C37", "title": "Process exit status", "statement": "The program returns 0 iff the run completed or found no messages, 1 for every other application error, and the reader and writer are closed in every case.", "quantifier": "all outcomes of every phase", "why_tests_cant": "all failure points", "anchors": ["src/pyg2p/main/__init__.py:pyg2p_exe", "src/pyg2p/main/__init__.py:execute"]}
{"id": "C38", "title": "Configuration commands work", "statement": "-g adds the geopotential, -W downloads, -K checks the configuration, each returning 0 on success.", "quantifier": "all argument vectors", "why_tests_cant": "control flow over all arguments", "anchors": ["src/pyg2p/main/__init__.py:config_command", "src/pyg2p/main/context.py:_define_input_args"]}
{"id": "C39", "title": "User configuration overrides global configuration", "statement": "After loading, looking up a key gives the user's value if the user file defines it, else the global value; the user file is created from the template only when absent and never altered by loading.", "quantifier": "all global/user files", "why_tests_cant": "all key sets", "anchors": ["src/pyg2p/main/config.py:BaseConfiguration.merge_with_user_conf"]}
{"id": "C40", "title": "User variables file parsing", "statement": "Each KEY=VALUE line of a .conf file defines KEY with exactly VALUE (trimmed); comments and blank lines define nothing; later definitions win.", "quantifier": "all file contents", "why_tests_cant": "all strings", "anchors": ["src/pyg2p/main/config.py:UserConfiguration.load_properties"]}
{"id": "C41", "title": "Path variables are substituted", "statement": "Every {VAR} in the four path settings is replaced by the user's value; a variable that is not defined is reported with error 8000 naming it.", "quantifier": "all strings and variable maps", "why_tests_cant": "all strings", "anchors": ["src/pyg2p/main/config.py:UserConfiguration.interpolate_strings"]}
{"id": "C42", "title": "Geopotential file lookup", "statement": "The geopotential used for a grid is the file registered for its identifier in the first of: the -G folder, the user folder, the global folder, in which it exists; 4000 if none is registered, 4200 if no file exists.", "quantifier": "all registries and file systems", "why_tests_cant": "all file systems", "anchors": ["src/pyg2p/main/config.py:GeopotentialsConfiguration.get_filepath", "src/pyg2p/main/context.py:geo_file"]}
{"id": "C43", "title": "Geopotential registration", "statement": "Registering never replaces an existing identifier, removing deletes exactly the entry with that file name, and the state on disk always equals the user part in memory after each operation.", "quantifier": "all sequences of add/remove/reload", "why_tests_cant": "history property", "anchors": ["src/pyg2p/main/config.py:GeopotentialsConfiguration.add", "src/pyg2p/main/config.py:remove", "src/pyg2p/main/config.py:dump"]}
{"id": "C44", "title": "Configuration survives a save/load round trip", "statement": "Saving the user configuration and loading it again gives the same entries.", "quantifier": "all user configurations including the empty one", "why_tests_cant": "all maps", "anchors": ["src/pyg2p/main/config.py:BaseConfiguration.dump", "src/pyg2p/main/config.py:_load"]}
{"id": "C45", "title": "Parameter and conversion lookup", "statement": "Looking up a conversion returns an entry of that parameter having the requested identifier, or error 1200; unknown parameters give 1100.", "quantifier": "all configurations", "why_tests_cant": "all configurations", "anchors": ["src/pyg2p/main/config.py:ParametersConfiguration"]}
{"id": "C46", "title": "Download never overwrites local files", "statement": "Downloading a dataset fetches exactly the remote files that are not present locally and leaves existing files unchanged.", "quantifier": "all remote listings and local directories", "why_tests_cant": "all listings", "anchors": ["src/pyg2p/main/config.py:download_data"]}
{"id": "C47", "title": "Boolean strings", "statement": "A configuration boolean is true iff it is the value true or a non-empty string starting with t/T/y/Y.", "quantifier": "all strings", "why_tests_cant": "all strings", "anchors": ["src/pyg2p/util/strings.py:to_boolean"]}
{"id": "C48", "title": "Command objects round-trip to argument vectors", "statement": "A command built from option/value pairs produces the argument vector with exactly those options and values (sorted, plus log level); string placeholders are replaced; later settings win.", "quantifier": "all option lists", "why_tests_cant": "all strings and histories", "anchors": ["src/pyg2p/main/api.py:Command", "src/pyg2p/util/strings.py:to_argv", "src/pyg2p/util/strings.py:to_argdict"]}
{"id": "C49", "title": "Normalised table file names are short and safe", "statement": "The source part of an interpolation table file name, when normalised, has at most 10 characters and contains none of '-', '_', '.'; normalisation depends only on the file name.", "quantifier": "all file names", "why_tests_cant": "all strings", "anchors": ["src/pyg2p/util/files.py:normalize_filename"]}
{"id": "C50", "title": "PCRaster map names are 8.3 and distinct", "statement": "Map i of a run is named prefix, zero padding and number fmap+(i-1)*ext, split 8.3; different maps of a run get different names in the same order.", "quantifier": "all prefixes, first numbers, increments and map counts", "why_tests_cant": "collisions appear only for long prefixes/numbers", "anchors": ["src/pyg2p/main/writers/__init__.py:_name_pcr_map"]}
{"id": "C51", "title": "NetCDF time axis unit conversion", "statement": "The times written, in the unit written, denote the same instants as the GRIB steps; the time variable is integer iff all converted times are integers; units that cannot be converted fall back to the GRIB unit with unchanged values.", "quantifier": "all step lists and unit pairs", "why_tests_cant": "all pairs of units and values", "anchors": ["src/pyg2p/main/writers/netcdf.py:write"]}
{"id": "C52", "title": "NetCDF packing keeps missing cells and values", "statement": "A reader applying the CF attributes gets back every valid value, and sees as missing exactly the cells that are NaN, masked or outside the clone map.", "quantifier": "all fields, scale factors, offsets and masks", "why_tests_cant": "all reals", "anchors": ["src/pyg2p/main/writers/netcdf.py:write", "src/pyg2p/main/writers/netcdf.py:_mask_values"]}
{"id": "C53", "title": "PCRaster output masking", "statement": "A written PCRaster map has the missing value exactly in the cells outside the clone, masked, or NaN (or equal to the missing value already), and the original value elsewhere.", "quantifier": "all fields and masks", "why_tests_cant": "all fields", "anchors": ["src/pyg2p/main/writers/pcr.py:write"]}
{"id": "C54", "title": "Every step is interpolated on its own grid", "statement": "When the resolution changes, maps before the change step are interpolated with the first grid and maps from the change step on with the second, each step written exactly once in time order.", "quantifier": "all step sequences and change steps", "why_tests_cant": "stateful loop", "anchors": ["src/pyg2p/main/writers/__init__.py:write_maps", "src/pyg2p/main/api.py:Pyg2pApi"]}
{"id": "C55", "title": "Creating a table never overwrites another", "statement": "The file name chosen for a new interpolation table does not exist yet, the search for it terminates, and is the first free one.", "quantifier": "all directory contents", "why_tests_cant": "unbounded loop over file system state", "anchors": ["src/pyg2p/main/interpolation/__init__.py:_intertable_filename"]}
{"id": "C56", "title": "Table lookup order", "statement": "A registered table is read from the user folder if it exists there (plain or .gz), else from the global folder, else recreated in the user folder under the registered name, else error 8100 when creation is off.", "quantifier": "all registries and file systems", "why_tests_cant": "all file systems", "anchors": ["src/pyg2p/main/interpolation/__init__.py:_intertable_filename"]}
{"id": "C57", "title": "Created tables are reused", "statement": "After a table was created and registered, interpolating again with the same source grid, target and mode uses the stored table and gives the same result.", "quantifier": "all states and inputs", "why_tests_cant": "two-step histories", "anchors": ["src/pyg2p/main/interpolation/__init__.py:update_intertable_conf", "src/pyg2p/main/interpolation/__init__.py:interpolate_scipy", "src/pyg2p/main/interpolation/__init__.py:grib_nearest"]}
{"id": "C58", "title": "Table identifiers separate source grid, target grid and method", "statement": "Two runs share a table only if their source grid, target grid and interpolation mode coincide.", "quantifier": "all grids, maps and modes", "why_tests_cant": "injectivity over all inputs", "anchors": ["src/pyg2p/main/interpolation/__init__.py:_intertable_filename", "src/pyg2p/main/readers/pcr.py:identifier", "src/pyg2p/main/readers/netcdf.py:identifier"]}
{"id": "C59", "title": "The in-memory table cache is transparent", "statement": "Reading a table gives the content of its file, whatever was read before in the process.", "quantifier": "all sequences of reads and writes", "why_tests_cant": "history property", "anchors": ["src/pyg2p/main/interpolation/__init__.py:_read_intertable"]}
{"id": "C60", "title": "Table application", "statement": "Applying a table gives in each target cell the weighted sum of the source values it lists (the source value itself for nearest); cells listed as unreachable get the missing value; masked source values mask the cells that use them.", "quantifier": "all tables and fields", "why_tests_cant": "all fields", "anchors": ["src/pyg2p/main/interpolation/__init__.py:_interpolate_scipy_append_mv"]}
{"id": "C61", "title": "Nearest-neighbour interpolation returns source values", "statement": "Every output cell of nearest-neighbour interpolation is the value of the source point at minimal distance, or missing if that distance exceeds the bound.", "quantifier": "all source/target point sets", "why_tests_cant": "all geometries", "anchors": ["src/pyg2p/main/interpolation/scipy_interpolation_lib.py:_build_nn"]}
{"id": "C62", "title": "Inverse distance weights", "statement": "Inverse-distance weights are non-negative, sum to one, decrease with distance; a target coinciding with a source point takes exactly its value; results lie between the min and max of the neighbours; targets beyond the bound are missing.", "quantifier": "all distances and values", "why_tests_cant": "all reals", "anchors": ["src/pyg2p/main/interpolation/scipy_interpolation_lib.py:_build_weights_invdist"]}
{"id": "C63", "title": "GRIB nearest table alignment", "statement": "Each entry of the nearest table pairs a target cell with the source index returned for that same cell's coordinates; cells with missing coordinates or outside the grid appear nowhere and are missing in the output.", "quantifier": "all target grids and nearest-search outcomes", "why_tests_cant": "alignment of arrays filtered separately", "anchors": ["src/pyg2p/main/interpolation/grib_interpolation_lib.py:grib_nearest"]}
{"id": "C64", "title": "GRIB inverse distance table", "statement": "Each entry of the table pairs a target cell with four source indexes and weights that are non-negative and sum to one, exact hits use only the hit point; entries stay aligned whatever cells fail.", "quantifier": "all target grids and search outcomes", "why_tests_cant": "alignment of ten arrays filtered separately", "anchors": ["src/pyg2p/main/interpolation/grib_interpolation_lib.py:grib_invdist", "src/pyg2p/main/interpolation/grib_interpolation_lib.py:_compute_coeffs_and_idxs"]}
{"id": "C65", "title": "Parallel table creation equals serial creation", "statement": "The parallel versions produce the same tables as the serial ones, for any chunking.", "quantifier": "all grids, chunk counts and search outcomes", "why_tests_cant": "all partitions", "anchors": ["src/pyg2p/main/interpolation/grib_interpolation_lib.py:grib_nearest_parallel", "src/pyg2p/main/interpolation/grib_interpolation_lib.py:grib_invdist_parallel"]}
{"id": "C66", "title": "Table creation works for every target size", "statement": "Creating a table works for every number of target cells.", "quantifier": "all target sizes", "why_tests_cant": "progress bar arithmetic divides by a step that can be 0", "anchors": ["src/pyg2p/util/generics.py:progress_step_and_backchar", "src/pyg2p/main/interpolation/grib_interpolation_lib.py", "src/pyg2p/main/interpolation/scipy_interpolation_lib.py"]}
{"id": "C67", "title": "Splitting the target does not change the result", "statement": "Computing weights in num_of_splits pieces gives the same result as in one piece.", "quantifier": "all target sizes and split counts", "why_tests_cant": "all partitions", "anchors": ["src/pyg2p/main/interpolation/scipy_interpolation_lib.py:interpolate"]}
{"id": "C68", "title": "ADW distance weights", "statement": "Shepard's distance weights are non-negative, non-increasing and continuous in the distance, vanish beyond the search radius, and the radius follows the documented 4-to-10 neighbours rule.", "quantifier": "all distances", "why_tests_cant": "all reals", "anchors": ["src/pyg2p/main/interpolation/scipy_interpolation_lib.py:_build_weights_invdist"]}
{"id": "C69", "title": "CDD distance weights", "statement": "Hofstra and NewEtAl weights lie in (0,1] and decrease with distance; the mixed Hofstra/Shepard weight is continuous where the two formulas meet and zero beyond the radius.", "quantifier": "all distances and CDD values", "why_tests_cant": "all reals", "anchors": ["src/pyg2p/main/interpolation/scipy_interpolation_lib.py:_build_weights_invdist"]}
{"id": "C70", "title": "Directional weighting: broadcasting equals looping", "statement": "The use_broadcasting option changes only speed: the directional factors computed by the broadcasting code equal those of the loop.", "quantifier": "all neighbour counts and positions", "why_tests_cant": "index arithmetic for all sizes", "anchors": ["src/pyg2p/main/interpolation/scipy_interpolation_lib.py"]}
{"id": "C71", "title": "Directional factors are bounded", "statement": "The directional factor of every neighbour lies between 0 and 2 so final weights are non-negative.", "quantifier": "all positions", "why_tests_cant": "all reals", "anchors": ["src/pyg2p/main/interpolation/scipy_interpolation_lib.py"]}
{"id": "C72", "title": "Bilinear weights", "statement": "Bilinear weights computed from in-range parameters are non-negative, sum to one, reproduce a constant field and reproduce the corner value at a corner.", "quantifier": "all parameters in [0,1]", "why_tests_cant": "all reals", "anchors": ["src/pyg2p/main/interpolation/scipy_interpolation_lib.py:_build_weights_bilinear"]}
{"id": "C73", "title": "Corner ordering is a permutation", "statement": "Ordering the four corners clockwise returns the same four points.", "quantifier": "all point quadruples", "why_tests_cant": "all reals", "anchors": ["src/pyg2p/main/interpolation/scipy_interpolation_lib.py:get_clockwise_points"]}
{"id": "C74", "title": "Point in triangle/quadrilateral test", "statement": "The point-in-triangle test accepts exactly the points of the closed triangle, whatever the orientation.", "quantifier": "all triangles and points", "why_tests_cant": "all reals", "anchors": ["src/pyg2p/main/interpolation/scipy_interpolation_lib.py:isPointInTriangle", "src/pyg2p/main/interpolation/scipy_interpolation_lib.py:isPointInQuadrilateral"]}
{"id": "C75", "title": "Triangulation weights", "statement": "Barycentric weights sum to one, reproduce the target point and any affine field; indices created by periodic extension are mapped back to the original source point.", "quantifier": "all triangles and points, all grids", "why_tests_cant": "all reals; off-by-one at one index", "anchors": ["src/pyg2p/main/interpolation/scipy_interpolation_lib.py:_build_weights_triangulation"]}
{"id": "C76", "title": "Spherical coordinates", "statement": "The 3-d coordinates of every grid point lie on the sphere of the given radius, so chord distance is a function of the angle; rotating a grid preserves distances.", "quantifier": "all coordinates", "why_tests_cant": "all reals", "anchors": ["src/pyg2p/main/interpolation/scipy_interpolation_lib.py:to_3d"]}
{"id": "C77", "title": "Output maps are written in time order", "statement": "Maps are written in non-decreasing end-step order, one per aggregated step, whatever the order of the messages in the file.", "quantifier": "all message orders", "why_tests_cant": "all permutations", "anchors": ["src/pyg2p/main/controller.py:execute"]}
{"id": "C78", "title": "Two-resolution runs cover the whole range", "statement": "With a resolution change the first part is aggregated up to the change and the second part from the first full interval after the change; no interval is produced twice.", "quantifier": "all change steps, ranges and aggregation steps", "why_tests_cant": "all parameters", "anchors": ["src/pyg2p/main/controller.py:execute", "src/pyg2p/main/controller.py:second_res_manipulation"]}
{"id": "C79", "title": "Two-resolution runs without aggregation output both resolutions", "statement": "Without aggregation, messages of both resolutions are written.", "quantifier": "all two-resolution inputs", "why_tests_cant": "all inputs", "anchors": ["src/pyg2p/main/controller.py:execute"]}
{"id": "C80", "title": "Missing-value sentinel survives aggregation", "statement": "A cell equal to the GRIB missing value (no bitmap) in a contributing field is missing in the aggregated output.", "quantifier": "all fields", "why_tests_cant": "per cell over all values", "anchors": ["src/pyg2p/main/manipulation/aggregator.py", "src/pyg2p/main/controller.py"]}
{"id": "C81", "title": "Checking the configuration cleans up the interpolation table registry", "statement": "Checking the configuration removes from the registry exactly the user-made interpolation tables whose file is gone, keeps all others and completes.", "quantifier": "all registries and directories", "why_tests_cant": "all registry contents", "anchors": ["src/pyg2p/main/config.py:GlobalConf.check_conf"]}
{"id": "C82", "title": "An interrupted table creation does not spoil later runs", "statement": "When a run that creates an interpolation table is interrupted at any point, the program still starts afterwards, later runs of that table succeed with a complete table, and runs with other tables are unaffected.", "quantifier": "all interruption points, stores and runs", "why_tests_cant": "every crash point", "anchors": ["src/pyg2p/main/interpolation/__init__.py:interpolate_scipy", "src/pyg2p/main/interpolation/__init__.py:update_intertable_conf", "src/pyg2p/main/config.py:UserConfiguration.dump"]}
{"id": "C83", "title": "Angular-distance weights of a cell", "statement": "For every target cell the ADW and CDD methods give finite weights that are not negative and sum to one, and a cell that coincides with a station takes the value of that station.", "quantifier": "all stations and targets", "why_tests_cant": "all reals; degenerate station layouts", "anchors": ["src/pyg2p/main/interpolation/scipy_interpolation_lib.py:_build_weights_invdist"]}
{"id": "C84", "title": "Longitude convention", "statement": "Giving the same stations with longitudes in 0..360 or in -180..180 does not change the interpolated value.", "quantifier": "all stations and targets", "why_tests_cant": "all pairs of equivalent inputs", "anchors": ["src/pyg2p/main/interpolation/scipy_interpolation_lib.py:_build_weights_invdist", "src/pyg2p/main/interpolation/scipy_interpolation_lib.py:adw_and_cdd_compute_weights_directional_in_broadcasting"]}
{"id": "C85", "title": "Triangulation uses one plane for source and target", "statement": "The triangulation method maps source points and target cells to its plane by the same function, each cell by its own latitude, so a target that coincides with a source point is given its value.", "quantifier": "all grids", "why_tests_cant": "all reals", "anchors": ["src/pyg2p/main/interpolation/scipy_interpolation_lib.py:_build_weights_triangulation"]}
{"id": "C86", "title": "Corner coordinates denote the source points", "statement": "The latitude and longitude the bilinear method uses in the plane for a source point denote that source point on the globe, also across a pole or the date line, and lie within 90 degrees of longitude of the target.", "quantifier": "all targets and source points", "why_tests_cant": "all reals; boundary at the equator, the poles and the date line", "anchors": ["src/pyg2p/main/interpolation/scipy_interpolation_lib.py:get_correct_lats_lons"]}
{"id": "C87", "title": "Correlation length of a station is read at the station", "statement": "The NewEtAl CDD method uses for each station the value of the CDD map cell that contains the station.", "quantifier": "all maps and stations", "why_tests_cant": "all reals; rounding at cell boundaries", "anchors": ["src/pyg2p/main/interpolation/scipy_interpolation_lib.py:cdd_newetal_compute_weights_from_cutoff_distances"]}
{"id": "C88", "title": "Nearest source points on rotated and regular grids", "statement": "With and without the rotated_target option, the source points used for a target cell are those nearest to it on the globe.", "quantifier": "all poles, targets and source points", "why_tests_cant": "all reals", "anchors": ["src/pyg2p/main/interpolation/scipy_interpolation_lib.py:to_3d", "src/pyg2p/main/interpolation/scipy_interpolation_lib.py:interpolate_split"]}
{"id": "C89", "title": "CDD options are taken by name", "statement": "The options of the MixHofstraShepard mode apply by their names, in whatever order or selection the command file gives them, and an unknown CDD mode is reported as an application error.", "quantifier": "all option objects and mode strings", "why_tests_cant": "all orders and subsets of keys", "anchors": ["src/pyg2p/main/interpolation/scipy_interpolation_lib.py:_build_weights_invdist"]}
{"id": "C90", "title": "OnlyTOP10 keeps the ten largest weights", "statement": "With weights_mode OnlyTOP10 each cell keeps its ten largest weights and loses the smallest one.", "quantifier": "all weights, every behaviour numpy documents for argpartition", "why_tests_cant": "depends on an unspecified order", "anchors": ["src/pyg2p/main/interpolation/scipy_interpolation_lib.py:_build_weights_invdist"]}
{"id": "C91", "title": "A table is used only with the settings it was made for", "statement": "A run uses an existing interpolation table only when the settings that decide the weights (method, CDD map, mode and options, rotated_target, grids) are those the table was computed with.", "quantifier": "all settings and histories of runs", "why_tests_cant": "all pairs of settings and histories", "anchors": ["src/pyg2p/main/interpolation/__init__.py:_intertable_filename"]}
{"id": "C92", "title": "API takes the same options as the command", "statement": "An ApiContext built from a dictionary gives every option the value a pyg2p command with the same options and the same command file sections gets (with the same defaults).", "quantifier": "all options and sections", "why_tests_cant": "all combinations of given, missing and empty values", "anchors": ["src/pyg2p/main/api.py:ApiContext._define_exec_params"]}
{"id": "C93", "title": "API returns what the command writes", "statement": "Pyg2pApi.execute returns one map per output step, in time order, and each map is cell by cell the one the command writes for that step.", "quantifier": "all inputs, masks and steps", "why_tests_cant": "all arrays and masks", "anchors": ["src/pyg2p/main/api.py:Pyg2pApi.execute"]}
{"id": "C94", "title": "API runs behave like commands", "statement": "An API run releases the files it opened and creates missing interpolation tables when asked to, as the command does.", "quantifier": "all runs and failure points", "why_tests_cant": "all failure points and histories", "anchors": ["src/pyg2p/main/api.py:Pyg2pApi.execute"]}
{"id": "C95", "title": "API lists all configured parameters", "statement": "Pyg2pApi.parameter_details() lists every parameter name that can be used.", "quantifier": "all configurations", "why_tests_cant": "all configurations", "anchors": ["src/pyg2p/main/api.py:Pyg2pApi.parameter_details"]}
{"id": "C96", "title": "Bilinear weights of every cell", "statement": "Every row the bilinear method stores has four non-negative weights summing to 1 for four source points, or marks the cell as left out (first weight NaN, others 0); this holds whatever the solver returns.", "quantifier": "all targets, sources, solver answers and earlier cells", "why_tests_cant": "all geometries and histories of cells", "anchors": ["src/pyg2p/main/interpolation/scipy_interpolation_lib.py:_build_weights_bilinear"]}
{"id": "C97", "title": "Bilinear corners surround their own cell", "statement": "The four source points weighted for a cell by the bilinear method are points around that cell: the cell lies in their quadrilateral.", "quantifier": "all target and source grids", "why_tests_cant": "all geometries; depends on the cells processed before", "anchors": ["src/pyg2p/main/interpolation/scipy_interpolation_lib.py:_build_weights_bilinear", "src/pyg2p/main/interpolation/scipy_interpolation_lib.py:getWrongPointBestGridLikeShape"]}
{"id": "C98", "title": "Bilinear table creation ends", "statement": "Building the table of the bilinear method ends for every target and source grid.", "quantifier": "all geometries", "why_tests_cant": "termination over all inputs", "anchors": ["src/pyg2p/main/interpolation/scipy_interpolation_lib.py:_build_weights_bilinear"]}
{"id": "C99", "title": "Bilinear weights are determined", "statement": "When the bilinear method has found corners around a cell, the system for the weights has exactly one solution, and an inexact solution changes the value of a field that is affine in latitude and longitude by no more than the residual times its gradient.", "quantifier": "all quadrilaterals and targets inside", "why_tests_cant": "all reals", "anchors": ["src/pyg2p/main/interpolation/scipy_interpolation_lib.py:_functionAlphaBeta", "src/pyg2p/main/interpolation/scipy_interpolation_lib.py:isConvexQuadrilateral"]}
{"id": "C100", "title": "Bilinear corner search never fails its own assertion", "statement": "When the corners of a cell are not convex a vertex to replace is found, so building the table never ends in an AssertionError.", "quantifier": "all corner positions, all source grids", "why_tests_cant": "all geometries, including degenerate ones", "anchors": ["src/pyg2p/main/interpolation/scipy_interpolation_lib.py:getNonConvexVertex", "src/pyg2p/main/interpolation/scipy_interpolation_lib.py:get_angle"]}
{"id": "C101", "title": "Manipulation never changes the fields read", "statement": "Conversion, aggregation and cut-off never change an array that existed before, also when they end in an error; every resulting map is an array of its own, shared neither with the fields read nor with another map, and holds the converted, aggregated and cut values.", "quantifier": "all sets of fields in memory, also fields that share one array; all settings", "why_tests_cant": "aliasing over all memory layouts", "anchors": ["src/pyg2p/main/manipulation/aggregator.py:Aggregator.do_manipulation", "src/pyg2p/main/manipulation/conversion.py:Converter"]}
{"id": "C102", "title": "Quoted items of a command text are kept as they were written", "statement": "When a command is built from a text, an item in double quotes becomes one argument with exactly the characters between the quotes, blanks included and doubled quotes halved; plain words are one argument each; an empty text is refused with IndexError.", "quantifier": "all sequences of words and quoted items, of any length", "why_tests_cant": "all texts", "anchors": ["src/pyg2p/util/strings.py:to_argv"]}
{"id": "C103", "title": "Table names do not depend on the date in the file name", "statement": "The part of a table identifier taken from a file name is the same for two names that differ only in their extension and in a date of eight to ten digits; longer rows of digits lose whole tens, and names without a date keep their first ten letters in lower case.", "quantifier": "all names, dates and extensions", "why_tests_cant": "all texts", "anchors": ["src/pyg2p/util/files.py:normalize_filename", "src/pyg2p/util/files.py:without_ext"]}
{"id": "C104", "title": "Coordinates of a netCDF target map", "statement": "With a netCDF map as target every cell gets the latitude and the longitude that the file's coordinate variables give it, whatever the order of the dimensions; a map for which this is impossible is refused.", "quantifier": "all netCDF files with coordinate variables, all sizes and orders of dimensions", "why_tests_cant": "all files and sizes", "anchors": ["src/pyg2p/main/readers/netcdf.py:NetCDFReader", "src/pyg2p/main/interpolation/latlong.py:LatLong"]}
{"id": "C105", "title": "A map stored upside down has its own tables", "statement": "A target map and the same map with its rows in the opposite order never share an interpolation table.", "quantifier": "all netCDF target maps", "why_tests_cant": "all maps", "anchors": ["src/pyg2p/main/readers/netcdf.py:NetCDFReader.identifier", "src/pyg2p/main/interpolation/__init__.py:Interpolator"]}
{"id": "C106", "title": "Coordinates of the netCDF output", "statement": "The coordinate variables of a netCDF output file place every cell at the latitude and longitude used to interpolate it.", "quantifier": "all target maps, netCDF and PCRaster", "why_tests_cant": "all maps, also with missing cells or curved rows", "anchors": ["src/pyg2p/main/writers/netcdf.py:NetCDFWriter.write", "src/pyg2p/main/interpolation/latlong.py:LatLong"]}
{"id": "C107", "title": "Missing heights of a netCDF DEM", "statement": "A cell that is missing in a netCDF DEM (by missing_value, _FillValue or the default fill value of its type) is set to the missing value by the correction, and only such a cell.", "quantifier": "all attributes, types and heights", "why_tests_cant": "all files", "anchors": ["src/pyg2p/main/readers/netcdf.py:NetCDFReader", "src/pyg2p/main/interpolation/latlong.py:Dem", "src/pyg2p/main/manipulation/correction.py:Corrector.correct"]}
{"id": "C108", "title": "Unsuitable target maps are refused", "statement": "A map that cannot serve as target is refused with a documented error code.", "quantifier": "all netCDF files", "why_tests_cant": "all files", "anchors": ["src/pyg2p/main/interpolation/latlong.py:LatLong", "src/pyg2p/main/readers/netcdf.py:NetCDFReader.find_main_var"]}
{"id": "C109", "title": "Data folders that cannot be written are reported", "statement": "A geopotential or an interpolation table is stored only when the user's folder is set, exists and can be written; otherwise the error is 8000, 8600 or 8500, and the registry stays as it was.", "quantifier": "all folders, permissions and registries", "why_tests_cant": "all file system states", "anchors": ["src/pyg2p/main/config.py:BaseConfiguration.check_write", "src/pyg2p/main/config.py:GeopotentialsConfiguration.add", "src/pyg2p/main/interpolation/__init__.py:Interpolator"]}
{"id": "C110", "title": "The second triangle lies across the longest side", "statement": "Mode bilinear_delaunay looks for the second triangle of a quadrilateral across a longest side of the triangle of the cell.", "quantifier": "all triangles with area", "why_tests_cant": "all triangles, real angles", "anchors": ["src/pyg2p/main/interpolation/scipy_interpolation_lib.py:ScipyInterpolation._build_weights_triangulation", "src/pyg2p/main/interpolation/scipy_interpolation_lib.py:get_angle"]}
{"id": "C111", "title": "Every triangle belongs to at most one quadrilateral", "statement": "In mode bilinear_delaunay one pairing of neighbouring triangles explains the source points of all cells: partners are mutual, every cell uses the four corners of its triangle and its partner, or the three corners of its triangle when the triangle across the longest side is missing or taken.", "quantifier": "all triangulations, all targets, any number of cells in any order", "why_tests_cant": "all histories of the pairing loop", "anchors": ["src/pyg2p/main/interpolation/scipy_interpolation_lib.py:ScipyInterpolation._build_weights_triangulation"]}
{"id": "C112", "title": "bilinear_delaunay stays within the source values", "statement": "A cell inside the triangulation gets a value between the smallest and the largest source value, whatever the equation solver returns; constant fields are reproduced.", "quantifier": "all triangulations, fields, solver results", "why_tests_cant": "all inputs and solver results", "anchors": ["src/pyg2p/main/interpolation/scipy_interpolation_lib.py:ScipyInterpolation._build_weights_triangulation", "src/pyg2p/main/interpolation/__init__.py:Interpolator.interpolate_scipy"]}
{"id": "C113", "title": "bilinear_delaunay builds a table for every target", "statement": "Mode bilinear_delaunay builds the table of every target map.", "quantifier": "all triangulations and targets", "why_tests_cant": "all inputs", "anchors": ["src/pyg2p/main/interpolation/scipy_interpolation_lib.py:ScipyInterpolation._build_weights_triangulation"]}
{"id": "C114", "title": "The order of the cells does not matter", "statement": "In mode bilinear_delaunay the value of a target cell does not depend on the other cells of the target map nor on their order.", "quantifier": "all targets", "why_tests_cant": "all orders", "anchors": ["src/pyg2p/main/interpolation/scipy_interpolation_lib.py:ScipyInterpolation._build_weights_triangulation"]}
{"id": "C115", "title": "Cells outside the source and missing values in bilinear_delaunay", "statement": "A cell outside the source grid becomes the missing value, and a cell inside does not depend on the missing value.", "quantifier": "all targets, fields and missing values", "why_tests_cant": "all inputs", "anchors": ["src/pyg2p/main/interpolation/scipy_interpolation_lib.py:ScipyInterpolation._build_weights_triangulation", "src/pyg2p/main/interpolation/__init__.py:Interpolator.interpolate_scipy"]}
{"id": "C116", "title": "bilinear_delaunay reproduces planes", "statement": "A field that is affine in latitude and longitude is reproduced exactly in every cell inside the triangulation.", "quantifier": "all triangulations, targets and affine fields", "why_tests_cant": "all inputs, all pairings", "anchors": ["src/pyg2p/main/interpolation/scipy_interpolation_lib.py:ScipyInterpolation._build_weights_triangulation"]}
{"id": "C117", "title": "A run without aggregation, from messages to files", "statement": "A run on one grid without aggregation writes one PCRaster file per selected message, numbered in order of the end steps; a cell holds the converted, cut-off, interpolated and corrected value of the message, and the clone's missing value outside the clone and for NaN.", "quantifier": "all message sets, conversions, tables, masks and names", "why_tests_cant": "whole runs, all inputs", "anchors": ["src/pyg2p/main/controller.py:Controller.execute", "src/pyg2p/main/writers/__init__.py:OutputWriter", "src/pyg2p/main/interpolation/__init__.py:Interpolator.interpolate"]}
{"id": "C118", "title": "An accumulation run, from messages to files", "statement": "An accumulation run writes one PCRaster file per interval in order; a cell holds what the table makes of the converted value at the end minus the converted value at the start of the interval, in the unit time, cut off and corrected as asked.", "quantifier": "all message sets with the needed steps, all options and tables", "why_tests_cant": "whole runs, all inputs", "anchors": ["src/pyg2p/main/manipulation/aggregator.py:Aggregator.do_manipulation", "src/pyg2p/main/controller.py:Controller.execute", "src/pyg2p/main/writers/__init__.py:OutputWriter", "src/pyg2p/main/interpolation/__init__.py:Interpolator.interpolate"]}
{"id": "C119", "title": "An average run, from messages to files", "statement": "An average run writes one PCRaster file per interval in order; a cell holds what the table makes of the hourly mean of the converted fields of the interval.", "quantifier": "all message sets that reach the end, all options and tables", "why_tests_cant": "whole runs, all inputs", "anchors": ["src/pyg2p/main/manipulation/aggregator.py:Aggregator.do_manipulation", "src/pyg2p/main/controller.py:Controller.execute", "src/pyg2p/main/writers/__init__.py:OutputWriter", "src/pyg2p/main/interpolation/__init__.py:Interpolator.interpolate"]}
{"id": "C120", "title": "Accumulated amounts are conserved in the files", "statement": "The values of a cell over all files of an accumulation run add up to the change of the field from the first start to the last end at the source points of the cell, weighted as in the table.", "quantifier": "all message sets (gaps filled or not), weights, ranges and steps", "why_tests_cant": "sums over runs of any length", "anchors": ["src/pyg2p/main/manipulation/aggregator.py:Aggregator.do_manipulation", "src/pyg2p/main/controller.py:Controller.execute", "src/pyg2p/main/writers/__init__.py:OutputWriter", "src/pyg2p/main/interpolation/__init__.py:Interpolator.interpolate"]}
{"id": "C121", "title": "Missing in, missing out", "statement": "A cell without source point, or whose source points are all missing, is written as the clone's missing value.", "quantifier": "all message sets, tables, masks and missing values", "why_tests_cant": "whole runs, all inputs", "anchors": ["src/pyg2p/main/writers/pcraster.py:PCRasterWriter.write", "src/pyg2p/main/controller.py:Controller.execute", "src/pyg2p/main/writers/__init__.py:OutputWriter", "src/pyg2p/main/interpolation/__init__.py:Interpolator.interpolate"]}
{"id": "C122", "title": "The two output formats agree", "statement": "The PCRaster files and the netCDF file of the same run hold the same values: a cell is missing in both or in neither, and numbers are equal up to the packing of the netCDF variable.", "quantifier": "all runs, packings and missing values", "why_tests_cant": "whole runs, all inputs", "anchors": ["src/pyg2p/main/writers/netcdf.py:NetCDFWriter.add_timestep", "src/pyg2p/main/writers/pcraster.py:PCRasterWriter.write", "src/pyg2p/main/controller.py:Controller.execute", "src/pyg2p/main/writers/__init__.py:OutputWriter", "src/pyg2p/main/interpolation/__init__.py:Interpolator.interpolate"]}
{"id": "C123", "title": "Corrected runs", "statement": "In a run with height correction every cell with a source point and known heights holds the formula of its heights and its interpolated value, and every other cell is missing.", "quantifier": "all message sets, formulas, heights and missing values", "why_tests_cant": "whole runs, all inputs", "anchors": ["src/pyg2p/main/manipulation/correction.py:Corrector.correct", "src/pyg2p/main/controller.py:Controller.execute", "src/pyg2p/main/writers/__init__.py:OutputWriter", "src/pyg2p/main/interpolation/__init__.py:Interpolator.interpolate"]}
{"id": "C124", "title": "From the GRIB file to the maps, without aggregation", "statement": "A run without aggregation takes from the GRIB file the messages of the parameter in the requested window with the requested level, time, date and member (those up to its end if none starts in it), and writes one map for each, in order of the end steps, made from its converted field.", "quantifier": "all files, selections, windows, conversions, tables and masks", "why_tests_cant": "whole runs from file to maps, all inputs", "anchors": ["src/pyg2p/main/readers/grib.py:GRIBReader.select_messages", "src/pyg2p/main/readers/grib.py:GRIBReader.get_grib_info", "src/pyg2p/main/controller.py:Controller.init_execution", "src/pyg2p/main/controller.py:Controller.execute", "src/pyg2p/main/writers/__init__.py:OutputWriter", "src/pyg2p/main/interpolation/__init__.py:Interpolator.interpolate"]}
{"id": "C125", "title": "From the GRIB file to the maps, with aggregation", "statement": "An accumulation or average run reads the file from one aggregation step before the requested start, and writes one map per interval up to the requested end (or the last step in the file), made from the messages of the file that bound or fill the interval.", "quantifier": "all files with the needed steps, selections, windows, options, tables and masks", "why_tests_cant": "whole runs from file to maps, all inputs", "anchors": ["src/pyg2p/main/readers/grib.py:GRIBReader.select_messages", "src/pyg2p/main/readers/grib.py:GRIBReader.get_grib_info", "src/pyg2p/main/controller.py:Controller.init_execution", "src/pyg2p/main/controller.py:Controller.execute", "src/pyg2p/main/writers/__init__.py:OutputWriter", "src/pyg2p/main/interpolation/__init__.py:Interpolator.interpolate"]}
{"id": "C126", "title": "A run reports missing messages exactly when there are none", "statement": "A run ends with error 3000 exactly when the file holds no message the command asks for, whether or not the file can be indexed.", "quantifier": "all files and commands", "why_tests_cant": "all inputs", "anchors": ["src/pyg2p/main/readers/grib.py:GRIBReader.__init__", "src/pyg2p/main/readers/grib.py:GRIBReader.scan_grib", "src/pyg2p/main/controller.py:Controller.init_execution"]}
{"id": "C127", "title": "Which corners the bilinear method gives up", "statement": "Of four corners the bilinear method gives up repeated points; otherwise, of those not north and those north of the target, all but the nearest two; then the one off its row by more than a tenth of the distance of the nearest row; then one that lies on the other side of its partner.", "quantifier": "all targets, all corners", "why_tests_cant": "all configurations of points", "anchors": ["src/pyg2p/main/interpolation/scipy_interpolation_lib.py:getWrongPointDirection", "src/pyg2p/main/interpolation/scipy_interpolation_lib.py:getWrongPointGridLikeShape", "src/pyg2p/main/interpolation/scipy_interpolation_lib.py:getWrongPointBestGridLikeShape", "src/pyg2p/main/interpolation/scipy_interpolation_lib.py:ScipyInterpolation._build_weights_bilinear"]}
{"id": "C128", "title": "The triangulation of a global grid has no hole at the date line, that of a regional grid stays regional", "statement": "A global source grid is recognised and extended so that every longitude lies between neighbouring points; a regional grid is not extended; every target longitude is accepted.", "quantifier": "all source grids, all target longitudes", "why_tests_cant": "all grids", "anchors": ["src/pyg2p/main/interpolation/scipy_interpolation_lib.py:ScipyInterpolation._build_weights_triangulation"]}
{"id": "C129", "title": "Maps stay within the data", "statement": "In a run without cut-off and correction, a cell whose table entry is a mean of source points holds, in every map, a value between the smallest and the largest converted value of the message (of all messages, for averages) at these points; a constant field is reproduced.", "quantifier": "all message sets, tables whose entries are means, masks and options", "why_tests_cant": "whole runs, all inputs", "anchors": ["src/pyg2p/main/controller.py:Controller.execute", "src/pyg2p/main/writers/__init__.py:OutputWriter", "src/pyg2p/main/interpolation/__init__.py:Interpolator.interpolate"]}
{"id": "C130", "title": "No negative amounts", "statement": "With cut-off of negative values, no map holds a negative number other than the missing value; and an accumulation run of amounts that never decrease writes no negative numbers, with or without cut-off.", "quantifier": "all message sets, tables with weights that are not negative, masks and options", "why_tests_cant": "whole runs, all inputs", "anchors": ["src/pyg2p/main/manipulation/aggregator.py:Aggregator.do_manipulation", "src/pyg2p/main/controller.py:Controller.execute", "src/pyg2p/main/writers/__init__.py:OutputWriter", "src/pyg2p/main/interpolation/__init__.py:Interpolator.interpolate"]}
{"id": "C131", "title": "Running a command again writes the same maps", "statement": "A run that creates its interpolation tables in the user's folder, or finds them there, makes all its maps with one table for each grid (the one it computed, if it was new); and running it again after any history of other runs and restarts, with or without permission to create tables, writes the same maps and changes neither tables nor registry.", "quantifier": "all histories of runs and restarts before and after, all messages, tables and options", "why_tests_cant": "histories of any length", "anchors": ["src/pyg2p/main/writers/__init__.py:OutputWriter.write_maps", "src/pyg2p/main/interpolation/__init__.py:Interpolator._intertable_filename", "src/pyg2p/main/interpolation/__init__.py:Interpolator._read_intertable", "src/pyg2p/main/interpolation/__init__.py:Interpolator.interpolate_scipy", "src/pyg2p/main/interpolation/__init__.py:Interpolator.update_intertable_conf"]}
{"id": "C132", "title": "A failed run leaves only complete maps", "statement": "A PCRaster run that ends with an error has written its first maps as a complete run would: the files of the same run repeated later begin with them; a netCDF run that ends with an error before writing has written no map.", "quantifier": "all runs, all points of failure while maps are made, all later histories", "why_tests_cant": "failures at every map", "anchors": ["src/pyg2p/main/writers/__init__.py:OutputWriter.write_maps", "src/pyg2p/main/writers/__init__.py:OutputWriter._write_maps_pcraster", "src/pyg2p/main/writers/__init__.py:OutputWriter._write_maps_netcdf"]}
{"id": "C133", "title": "Which heights the correction uses", "statement": "With correction, the surface heights of a grid are made from a surface geopotential on that grid: the one of the input file if it holds one (of the member asked for), else the one of the file configured for the grid; of several, one with the smallest end step.", "quantifier": "all input files, configurations, formulas and tables", "why_tests_cant": "all files", "anchors": ["src/pyg2p/main/manipulation/correction.py:Corrector._read_geo", "src/pyg2p/main/readers/grib.py:GRIBReader.has_geopotential", "src/pyg2p/main/context.py:Context.geo_file"]}
{"id": "C134", "title": "Corrected maps from files", "statement": "A run with correction writes for every message taken from the input the formula of target height, interpolated converted value and surface height; the surface height is interpolated with the same table from one geopotential message, the same for all maps.", "quantifier": "all input and geopotential files on one grid, all options without aggregation", "why_tests_cant": "whole runs, all inputs", "anchors": ["src/pyg2p/main/manipulation/correction.py:Corrector.correct", "src/pyg2p/main/manipulation/correction.py:Corrector._read_geo", "src/pyg2p/main/controller.py:Controller.execute", "src/pyg2p/main/writers/__init__.py:OutputWriter", "src/pyg2p/main/interpolation/__init__.py:Interpolator.interpolate"]}
{"id": "C135", "title": "Accumulation over a change of grid", "statement": "An accumulation run whose input changes its grid, and that ends more than one aggregation step after the change, writes first the intervals up to the change, made from the messages of the first grid with its table and heights, then those from the change on, made from the messages of the second grid with its table and heights; the files are numbered through.", "quantifier": "all message sets with the needed steps on each grid, tables, conversions, corrections and masks", "why_tests_cant": "whole runs over two grids, all inputs", "anchors": ["src/pyg2p/main/controller.py:Controller.execute", "src/pyg2p/main/controller.py:Controller.execute", "src/pyg2p/main/writers/__init__.py:OutputWriter", "src/pyg2p/main/interpolation/__init__.py:Interpolator.interpolate"]}
{"id": "C136", "title": "Averages over a change of grid", "statement": "An average run whose input changes its grid, and that ends more than one aggregation step after the change, writes first the means of the intervals up to the change, made from the messages of the first grid with its table and heights, then those from the change on, made from the messages of the second grid with its table and heights; the files are numbered through.", "quantifier": "all message sets that reach the change and the end, tables, conversions, corrections and masks", "why_tests_cant": "whole runs over two grids, all inputs", "anchors": ["src/pyg2p/main/controller.py:Controller.execute", "src/pyg2p/main/controller.py:Controller.execute", "src/pyg2p/main/writers/__init__.py:OutputWriter", "src/pyg2p/main/interpolation/__init__.py:Interpolator.interpolate"]}
{"id": "C137", "title": "Two input files are joined at the first message of the second", "statement": "A command with two input files aggregates the messages of the first file up to the start of the first message of the second, and those of the second from its end on; each part is made with the table and heights of its grid, and the files are numbered through.", "quantifier": "all pairs of files with the needed steps, windows with an end, options, tables and masks", "why_tests_cant": "whole runs from two files, all inputs", "anchors": ["src/pyg2p/main/controller.py:Controller.read_2nd_res_messages", "src/pyg2p/main/controller.py:Controller.execute", "src/pyg2p/__init__.py:Messages.append_2nd_res_messages", "src/pyg2p/main/controller.py:Controller.execute", "src/pyg2p/main/writers/__init__.py:OutputWriter", "src/pyg2p/main/interpolation/__init__.py:Interpolator.interpolate"]}
{"id": "C138", "title": "A run on two files covers both", "statement": "Without an end in the command, a run on two input files covers the steps of both files.", "quantifier": "all pairs of files", "why_tests_cant": "all pairs of files", "anchors": ["src/pyg2p/main/controller.py:Controller.init_execution", "src/pyg2p/main/controller.py:Controller.read_2nd_res_messages", "src/pyg2p/main/controller.py:Controller.execute", "src/pyg2p/__init__.py:Messages.append_2nd_res_messages"]}
{"id": "C139", "title": "Missing points of the second file stay missing", "statement": "A point that is missing in the messages of the second file is missing in the maps made from them.", "quantifier": "all pairs of files and conversions", "why_tests_cant": "all pairs of files, all conversions", "anchors": ["src/pyg2p/__init__.py:Messages.apply_conversion", "src/pyg2p/main/controller.py:Controller.read_2nd_res_messages", "src/pyg2p/main/controller.py:Controller.execute", "src/pyg2p/__init__.py:Messages.append_2nd_res_messages"]}
{"id": "C140", "title": "Options reach the parameters they name", "statement": "The options written on a command line, in any order and spelling (-s 6, --start 6, -s=6, --start=6, -s6), set the parameters they name: each parameter has the last value given, read as a number where the option takes one; options not given have their initial value; the order of different options does not matter; the value written is used whatever the command file says.", "quantifier": "all sequences of options, spellings and values", "why_tests_cant": "all command lines", "anchors": ["src/pyg2p/main/context.py:ExecutionContext._define_input_args", "src/pyg2p/main/context.py:ExecutionContext.add_args"]}
{"id": "C141", "title": "Command lines that make no sense are refused", "statement": "A word that belongs to no option, an option that does not exist, a value the option does not take (no whole number, not one of the choices), a missing value, and an empty command line are refused with error 10000 wherever they occur.", "quantifier": "all command lines around the offending argument", "why_tests_cant": "all command lines", "anchors": ["src/pyg2p/main/context.py:ExecutionContext._define_input_args", "src/pyg2p/main/context.py:ExecutionContext.add_args"]}
{"id": "C142", "title": "Command objects run with the options they were given", "statement": "A command object runs the program with each option at the value it was given last, whichever of its methods set it.", "quantifier": "all command texts, placeholders and sequences of settings", "why_tests_cant": "all sequences of settings", "anchors": ["src/pyg2p/main/api.py:Command", "src/pyg2p/main/api.py:Command.run", "src/pyg2p/main/context.py:ExecutionContext._define_input_args", "src/pyg2p/main/context.py:ExecutionContext.add_args"]}
{"id": "C143", "title": "Command line and command file together decide the run", "statement": "A command line and its command file make one request: each option has the value typed last, else the one of the command file, else its default; parameter, conversion, paths with user variables, aggregation, window, member, level, numbering and output folder of the run are those of the request, and the exit status is 0 if all maps are written. Values that count as not given (C32: -f 1, -x 1, -F notset, empty names; 0, '' and false in the command file) are left out.", "quantifier": "all command lines with one input file and PCRaster output, command files with settings of the expected types and configurations", "why_tests_cant": "all combinations of sources of the options, whole commands", "anchors": ["src/pyg2p/main/__init__.py:pyg2p_exe", "src/pyg2p/main/__init__.py:execute", "src/pyg2p/main/context.py:ExecutionContext._define_exec_params", "src/pyg2p/main/context.py:Context._check_exec_params", "src/pyg2p/main/context.py:ExecutionContext._define_input_args", "src/pyg2p/main/context.py:ExecutionContext.add_args"]}
{"id": "C144", "title": "A command without aggregation writes the messages it asks for", "statement": "A command without aggregation writes one map for every message of the parameter that its options ask for, in the order of the end steps, numbered from the first map number in the given steps, in the output folder, each with what the interpolation table gives for the converted field; the exit status is 0.", "quantifier": "all command lines and command files (options as in C143), configurations, indexed GRIB files whose messages in the window are on one grid with one missing value, and tables that fit the grid", "why_tests_cant": "whole commands, all inputs", "anchors": ["src/pyg2p/main/__init__.py:pyg2p_exe", "src/pyg2p/main/__init__.py:execute", "src/pyg2p/main/context.py:ExecutionContext._define_exec_params", "src/pyg2p/main/context.py:Context._check_exec_params", "src/pyg2p/main/context.py:ExecutionContext._define_input_args", "src/pyg2p/main/context.py:ExecutionContext.add_args", "src/pyg2p/main/controller.py:Controller.execute", "src/pyg2p/main/writers/__init__.py:OutputWriter", "src/pyg2p/main/interpolation/__init__.py:Interpolator.interpolate"]}
{"id": "C145", "title": "A command with aggregation writes the aggregated fields", "statement": "A command that asks for accumulation or averages writes one map per interval of the aggregation step, with the difference (scaled to the unit of time) or the mean of the fields of the interval, converted and interpolated; a command that finds no message writes nothing; both end with status 0.", "quantifier": "all command lines and command files (options as in C143; averages from a start different from 0, with half weights see C161), configurations, indexed GRIB files with the needed steps whose messages in the window are on one grid with one missing value, and tables that fit the grid", "why_tests_cant": "whole commands, all inputs", "anchors": ["src/pyg2p/main/__init__.py:pyg2p_exe", "src/pyg2p/main/__init__.py:execute", "src/pyg2p/main/context.py:ExecutionContext._define_exec_params", "src/pyg2p/main/context.py:Context._check_exec_params", "src/pyg2p/main/context.py:ExecutionContext._define_input_args", "src/pyg2p/main/context.py:ExecutionContext.add_args", "src/pyg2p/main/controller.py:Controller.execute", "src/pyg2p/main/writers/__init__.py:OutputWriter", "src/pyg2p/main/interpolation/__init__.py:Interpolator.interpolate"]}
{"id": "C146", "title": "Commands that cannot be run write nothing and say so", "statement": "A command line that is not accepted, a missing command file, and a request whose input, maps, method, folder, window or DEM is not as it should be end with status 1 and write nothing; asking for help runs nothing.", "quantifier": "all command lines, command files and file systems", "why_tests_cant": "all commands", "anchors": ["src/pyg2p/main/__init__.py:pyg2p_exe", "src/pyg2p/main/__init__.py:execute", "src/pyg2p/main/context.py:ExecutionContext._define_exec_params", "src/pyg2p/main/context.py:Context._check_exec_params", "src/pyg2p/main/context.py:ExecutionContext._define_input_args", "src/pyg2p/main/context.py:ExecutionContext.add_args"]}
{"id": "C147", "title": "Cells in reach of the source grid get a value", "statement": "With nearest neighbour interpolation, a cell that has a source point within the largest distance between neighbouring source points gets the value of a nearest source point; a cell with no source point within that distance enlarged by 4 parts in the number of rows of the source grid gets the missing value.", "quantifier": "all source grids, target grids and fields", "why_tests_cant": "all grids and fields", "anchors": ["src/pyg2p/main/interpolation/scipy_interpolation_lib.py:ScipyInterpolation.__init__", "src/pyg2p/main/interpolation/scipy_interpolation_lib.py:ScipyInterpolation._build_nn"]}
{"id": "C148", "title": "Forecasts of every hour can be processed", "statement": "Whether maps are written does not depend on the hour at which the forecast starts: the messages of a forecast of 06:00 are processed as those of 00:00 or 12:00 are.", "quantifier": "all GRIB files and options", "why_tests_cant": "all hours, all runs", "anchors": ["src/pyg2p/main/readers/grib.py:GRIBReader.select_messages", "src/pyg2p/__init__.py:Messages.__init__", "src/pyg2p/main/controller.py:Controller.execute", "src/pyg2p/main/writers/__init__.py:OutputWriter", "src/pyg2p/main/interpolation/__init__.py:Interpolator.interpolate"]}
{"id": "C149", "title": "The netCDF output holds the maps asked for", "statement": "A run without aggregation with netCDF output makes one data set with the description, unit, packing and valid range asked for, times relative to the start of the forecast in the unit asked for, and one record for each message of the parameter that the options ask for, in the order of the end steps. A reader finds in each cell what the interpolation table gives for the converted field, exactly or within half a scale unit if packed as integers, and finds it missing outside the clone, where there is no value, and out of the valid range.", "quantifier": "all GRIB files, options, tables, masks, packings and units", "why_tests_cant": "whole runs, all inputs", "anchors": ["src/pyg2p/main/writers/__init__.py:OutputWriter._write_maps_netcdf", "src/pyg2p/main/writers/netcdf.py:NetCDFWriter.write", "src/pyg2p/main/controller.py:Controller.execute", "src/pyg2p/main/writers/__init__.py:OutputWriter", "src/pyg2p/main/interpolation/__init__.py:Interpolator.interpolate"]}
{"id": "C150", "title": "The netCDF output holds the aggregated maps", "statement": "A run with accumulation or averages and netCDF output makes one record per interval of the aggregation step, at the time of its end, from which a reader gets the difference (scaled to the unit of time) or the mean of the fields of the interval, converted and interpolated, with the precision of the packing.", "quantifier": "all GRIB files with the needed steps, options, tables, masks, packings and units", "why_tests_cant": "whole runs, all inputs", "anchors": ["src/pyg2p/main/writers/__init__.py:OutputWriter._write_maps_netcdf", "src/pyg2p/main/writers/netcdf.py:NetCDFWriter.write", "src/pyg2p/main/controller.py:Controller.execute", "src/pyg2p/main/writers/__init__.py:OutputWriter", "src/pyg2p/main/interpolation/__init__.py:Interpolator.interpolate"]}
{"id": "C151", "title": "What can be written as PCRaster maps can be written as netCDF", "statement": "A run whose maps can be written as PCRaster maps can be written as netCDF, on every clone and for every number of maps; only a step unit, value format or number that makes no sense is refused, with KeyError or ValueError.", "quantifier": "all runs and output options", "why_tests_cant": "all runs, clones and options", "anchors": ["src/pyg2p/main/writers/__init__.py:OutputWriter._write_maps_netcdf", "src/pyg2p/main/writers/netcdf.py:NetCDFWriter.write", "src/pyg2p/main/controller.py:Controller.execute", "src/pyg2p/main/writers/__init__.py:OutputWriter", "src/pyg2p/main/interpolation/__init__.py:Interpolator.interpolate"]}
{"id": "C152", "title": "A netCDF command stores the messages it asks for", "statement": "A command without aggregation with netCDF output stores one data set in the output folder, named after prefix and aggregation, with the description of the parameter, the unit of the conversion, and packing, valid range and step unit of the request (typed last, else in the command file, else default), and one record for each message of the parameter that the options ask for, in the order of the end steps, showing the interpolated converted field.", "quantifier": "all command lines and command files (options as in C143), configurations, indexed GRIB files whose messages in the window are on one grid with one missing value, and tables that fit the grid", "why_tests_cant": "whole commands, all inputs", "anchors": ["src/pyg2p/main/__init__.py:pyg2p_exe", "src/pyg2p/main/__init__.py:execute", "src/pyg2p/main/context.py:ExecutionContext._define_exec_params", "src/pyg2p/main/context.py:Context._check_exec_params", "src/pyg2p/main/context.py:ExecutionContext._define_input_args", "src/pyg2p/main/context.py:ExecutionContext.add_args", "src/pyg2p/main/writers/__init__.py:OutputWriter._write_maps_netcdf", "src/pyg2p/main/writers/netcdf.py:NetCDFWriter.write", "src/pyg2p/main/controller.py:Controller.execute", "src/pyg2p/main/writers/__init__.py:OutputWriter", "src/pyg2p/main/interpolation/__init__.py:Interpolator.interpolate"]}
{"id": "C153", "title": "A netCDF command with aggregation stores the aggregated fields", "statement": "A command that asks for accumulation or averages with netCDF output stores one record per interval of the aggregation step, at the time of its end, showing the difference (scaled to the unit of time) or the mean of the fields of the interval, converted and interpolated.", "quantifier": "all command lines and command files (options as in C143; averages from a start different from 0, with half weights see C161), configurations, indexed GRIB files with the needed steps whose messages in the window are on one grid with one missing value, and tables that fit the grid", "why_tests_cant": "whole commands, all inputs", "anchors": ["src/pyg2p/main/__init__.py:pyg2p_exe", "src/pyg2p/main/__init__.py:execute", "src/pyg2p/main/context.py:ExecutionContext._define_exec_params", "src/pyg2p/main/context.py:Context._check_exec_params", "src/pyg2p/main/context.py:ExecutionContext._define_input_args", "src/pyg2p/main/context.py:ExecutionContext.add_args", "src/pyg2p/main/writers/__init__.py:OutputWriter._write_maps_netcdf", "src/pyg2p/main/writers/netcdf.py:NetCDFWriter.write", "src/pyg2p/main/controller.py:Controller.execute", "src/pyg2p/main/writers/__init__.py:OutputWriter", "src/pyg2p/main/interpolation/__init__.py:Interpolator.interpolate"]}
{"id": "C154", "title": "The status of a command does not depend on the output format", "statement": "A command whose maps cannot be made ends with the same status whatever the output format: 0 if no message was found, 1 for the other errors of the program.", "quantifier": "all commands and formats", "why_tests_cant": "all commands", "anchors": ["src/pyg2p/main/__init__.py:pyg2p_exe", "src/pyg2p/main/__init__.py:execute", "src/pyg2p/main/context.py:ExecutionContext._define_exec_params", "src/pyg2p/main/context.py:Context._check_exec_params", "src/pyg2p/main/writers/__init__.py:OutputWriter._write_maps_netcdf", "src/pyg2p/main/writers/netcdf.py:NetCDFWriter.write", "src/pyg2p/main/writers/netcdf.py:NetCDFWriter.close"]}
{"id": "C155", "title": "A command with two input files joins them", "statement": "A command with a second input file and aggregation writes the intervals of the first file up to the start of the first message of the second, then those of the second file from its end on, each with the table of its own file, numbered through, in the output folder, with status 0; every option has the value typed last, else that of the command file, else its default.", "quantifier": "all command lines and command files (options as in C143, aggregation as in C137), configurations and pairs of indexed GRIB files with the needed steps, each on one grid, and tables that fit the grids", "why_tests_cant": "whole commands, all inputs", "anchors": ["src/pyg2p/main/__init__.py:pyg2p_exe", "src/pyg2p/main/__init__.py:execute", "src/pyg2p/main/context.py:ExecutionContext._define_exec_params", "src/pyg2p/main/context.py:Context._check_exec_params", "src/pyg2p/main/context.py:ExecutionContext._define_input_args", "src/pyg2p/main/context.py:ExecutionContext.add_args", "src/pyg2p/main/controller.py:Controller.read_2nd_res_messages", "src/pyg2p/main/controller.py:Controller.execute", "src/pyg2p/__init__.py:Messages.append_2nd_res_messages", "src/pyg2p/main/controller.py:Controller.execute", "src/pyg2p/main/writers/__init__.py:OutputWriter", "src/pyg2p/main/interpolation/__init__.py:Interpolator.interpolate"]}
{"id": "C156", "title": "A command that writes nothing says so", "statement": "A two-file command that writes no map does not end with status 0.", "quantifier": "all commands and pairs of files", "why_tests_cant": "all commands", "anchors": ["src/pyg2p/main/__init__.py:pyg2p_exe", "src/pyg2p/main/__init__.py:execute", "src/pyg2p/main/context.py:ExecutionContext._define_exec_params", "src/pyg2p/main/context.py:Context._check_exec_params", "src/pyg2p/main/controller.py:Controller.read_2nd_res_messages", "src/pyg2p/main/controller.py:Controller.execute", "src/pyg2p/__init__.py:Messages.append_2nd_res_messages"]}
{"id": "C157", "title": "Two input files can be processed without aggregation", "statement": "A command with two input files and no aggregation writes one map per message of the two files.", "quantifier": "all commands and pairs of files", "why_tests_cant": "all commands", "anchors": ["src/pyg2p/main/__init__.py:pyg2p_exe", "src/pyg2p/main/__init__.py:execute", "src/pyg2p/main/context.py:ExecutionContext._define_exec_params", "src/pyg2p/main/context.py:Context._check_exec_params", "src/pyg2p/main/controller.py:Controller.read_2nd_res_messages", "src/pyg2p/main/controller.py:Controller.execute", "src/pyg2p/__init__.py:Messages.append_2nd_res_messages"]}
{"id": "C158", "title": "Accumulated fields of two files are covered from the start", "statement": "A two-file command with accumulation of messages that are accumulated from the start of the forecast writes the intervals of the first file too.", "quantifier": "all commands and pairs of files whose messages start at step 0", "why_tests_cant": "all commands", "anchors": ["src/pyg2p/main/__init__.py:pyg2p_exe", "src/pyg2p/main/__init__.py:execute", "src/pyg2p/main/context.py:ExecutionContext._define_exec_params", "src/pyg2p/main/context.py:Context._check_exec_params", "src/pyg2p/main/controller.py:Controller.read_2nd_res_messages", "src/pyg2p/main/controller.py:Controller.execute", "src/pyg2p/__init__.py:Messages.append_2nd_res_messages"]}
{"id": "C159", "title": "Shortened and grouped options", "statement": "A long name may be shortened to any beginning that no other long name has (--sta 6, --sta=6, --create); a beginning of two names is refused with error 10000 wherever it stands. Switches may be written together behind one dash, with an option and its value at the end: -BXs6 is -B -X -s6.", "quantifier": "all command lines", "why_tests_cant": "all command lines", "anchors": ["src/pyg2p/main/context.py:ExecutionContext._define_input_args", "src/pyg2p/main/context.py:ExecutionContext.add_args"]}
{"id": "C160", "title": "Extracted fields are those of the steps asked for", "statement": "A run that asks for instantaneous fields every so many hours writes one map for every such step up to the end of the window, beginning one step before the requested start (at the start itself if that would not be after 0): each with the converted, interpolated field of the first message at or after that step. As a command it ends with status 0; as netCDF it makes one record per step.", "quantifier": "all GRIB files with instantaneous messages that reach the end of the window, options, tables; whole runs and commands", "why_tests_cant": "all message times and windows", "anchors": ["src/pyg2p/main/manipulation/aggregator.py:Aggregator", "src/pyg2p/main/__init__.py:pyg2p_exe", "src/pyg2p/main/__init__.py:execute", "src/pyg2p/main/context.py:ExecutionContext._define_exec_params", "src/pyg2p/main/context.py:Context._check_exec_params", "src/pyg2p/main/writers/__init__.py:OutputWriter._write_maps_netcdf", "src/pyg2p/main/writers/netcdf.py:NetCDFWriter.write", "src/pyg2p/main/controller.py:Controller.execute", "src/pyg2p/main/writers/__init__.py:OutputWriter", "src/pyg2p/main/interpolation/__init__.py:Interpolator.interpolate"]}
{"id": "C161", "title": "Half-weight averages count the ends half", "statement": "A run that asks for averages with half weights writes one map per interval of the aggregation step with the mean of the converted fields of the messages in the closed interval, where the message at either end counts half and the others fully, NaN if the interval has fewer than two messages. As a command it ends with status 0; as netCDF it makes one record per interval.", "quantifier": "all GRIB files with messages that are not accumulated, options with a start different from 0, tables; whole runs and commands", "why_tests_cant": "all message times and windows", "anchors": ["src/pyg2p/main/manipulation/aggregator.py:Aggregator", "src/pyg2p/main/__init__.py:pyg2p_exe", "src/pyg2p/main/__init__.py:execute", "src/pyg2p/main/context.py:ExecutionContext._define_exec_params", "src/pyg2p/main/context.py:Context._check_exec_params", "src/pyg2p/main/writers/__init__.py:OutputWriter._write_maps_netcdf", "src/pyg2p/main/writers/netcdf.py:NetCDFWriter.write", "src/pyg2p/main/controller.py:Controller.execute", "src/pyg2p/main/writers/__init__.py:OutputWriter", "src/pyg2p/main/interpolation/__init__.py:Interpolator.interpolate"]}
{"id": "C162", "title": "One file whose grid changes", "statement": "A run with accumulation or averages on one GRIB file whose messages are first on one grid and then on another writes the intervals up to the start of the first message of the second grid from the messages of the first grid with its table, then the intervals beginning at the end of that message, up to the end of the run, from the messages of the second grid with its own table; the maps are numbered through.", "quantifier": "all indexed GRIB files whose messages in the window are on a first, then on a second grid of as many points, with one missing value and the needed steps on each, options (averages without half weights, from a start different from 0), and tables that fit the grids", "why_tests_cant": "whole runs, all inputs", "anchors": ["src/pyg2p/main/readers/grib.py:GRIBReader.select_messages", "src/pyg2p/main/controller.py:Controller.execute", "src/pyg2p/main/writers/__init__.py:OutputWriter", "src/pyg2p/main/interpolation/__init__.py:Interpolator.interpolate"]}
{"id": "C163", "title": "netCDF output of a file whose grid changes", "statement": "With netCDF output such a run makes one data set: a record for each interval of the first grid, then one for each interval of the second, at the times at which the intervals end, in the unit asked for; each shows the map of its interval with the precision of the packing.", "quantifier": "all files and options of C162, clones with masked cells, packings and units", "why_tests_cant": "whole runs, all inputs", "anchors": ["src/pyg2p/main/writers/__init__.py:OutputWriter._write_maps_netcdf", "src/pyg2p/main/writers/netcdf.py:NetCDFWriter.write", "src/pyg2p/main/controller.py:Controller.execute", "src/pyg2p/main/writers/__init__.py:OutputWriter", "src/pyg2p/main/interpolation/__init__.py:Interpolator.interpolate"]}
{"id": "C164", "title": "netCDF output of two input files", "statement": "A run with aggregation, two input files and netCDF output makes one data set: a record for each interval of the first file up to the start of the first message of the second, then one for each interval of the second file from its end on, at the times at which the intervals end, in the unit asked for; each shows the field of its interval, interpolated with the table of its own file, with the precision of the packing.", "quantifier": "all pairs of indexed GRIB files, each on one grid and with the needed steps, options with accumulation or averages (without half weights, from a start different from 0), clones with masked cells, packings, units, and tables that fit the grids", "why_tests_cant": "whole runs, all inputs", "anchors": ["src/pyg2p/main/writers/__init__.py:OutputWriter._write_maps_netcdf", "src/pyg2p/main/writers/netcdf.py:NetCDFWriter.write", "src/pyg2p/main/controller.py:Controller.read_2nd_res_messages", "src/pyg2p/main/controller.py:Controller.execute", "src/pyg2p/__init__.py:Messages.append_2nd_res_messages", "src/pyg2p/main/controller.py:Controller.execute", "src/pyg2p/main/writers/__init__.py:OutputWriter", "src/pyg2p/main/interpolation/__init__.py:Interpolator.interpolate"]}
{"id": "C165", "title": "Commands on a file whose grid changes", "statement": "A command with aggregation on one GRIB file whose grid changes does what C162 (PCRaster, in the output folder, status 0) and C163 (netCDF) say, every option having the value typed last, else that of the command file, else its default.", "quantifier": "all command lines and command files (options as in C143), configurations, and files and tables as in C162", "why_tests_cant": "whole commands, all inputs", "anchors": ["src/pyg2p/main/__init__.py:pyg2p_exe", "src/pyg2p/main/__init__.py:execute", "src/pyg2p/main/context.py:ExecutionContext._define_exec_params", "src/pyg2p/main/context.py:Context._check_exec_params", "src/pyg2p/main/context.py:ExecutionContext._define_input_args", "src/pyg2p/main/context.py:ExecutionContext.add_args", "src/pyg2p/main/writers/__init__.py:OutputWriter._write_maps_netcdf", "src/pyg2p/main/writers/netcdf.py:NetCDFWriter.write", "src/pyg2p/main/controller.py:Controller.execute", "src/pyg2p/main/writers/__init__.py:OutputWriter", "src/pyg2p/main/interpolation/__init__.py:Interpolator.interpolate"]}
{"id": "C166", "title": "Two-file commands with netCDF output", "statement": "A command with aggregation, a second input file and netCDF output stores the one data set of both files (C164), every option having the value typed last, else that of the command file, else its default.", "quantifier": "all command lines and command files (options as in C143, C152), configurations, and pairs of files and tables as in C164", "why_tests_cant": "whole commands, all inputs", "anchors": ["src/pyg2p/main/__init__.py:pyg2p_exe", "src/pyg2p/main/__init__.py:execute", "src/pyg2p/main/context.py:ExecutionContext._define_exec_params", "src/pyg2p/main/context.py:Context._check_exec_params", "src/pyg2p/main/context.py:ExecutionContext._define_input_args", "src/pyg2p/main/context.py:ExecutionContext.add_args", "src/pyg2p/main/controller.py:Controller.read_2nd_res_messages", "src/pyg2p/main/controller.py:Controller.execute", "src/pyg2p/__init__.py:Messages.append_2nd_res_messages", "src/pyg2p/main/writers/__init__.py:OutputWriter._write_maps_netcdf", "src/pyg2p/main/writers/netcdf.py:NetCDFWriter.write", "src/pyg2p/main/controller.py:Controller.execute", "src/pyg2p/main/writers/__init__.py:OutputWriter", "src/pyg2p/main/interpolation/__init__.py:Interpolator.interpolate"]}
{"id": "C167", "title": "First run on a grid: maps from the nearest points", "statement": "A run without aggregation on a grid for which no table is registered, allowed to create tables, ends without error and writes the maps of the selected messages, in which every cell holds what the method gives for the converted field: with nearest neighbour the value of a nearest source point if it is within reach (the largest spacing of the source points enlarged by 4 parts in its rows), else the missing value; with inverse distance the mean of its four nearest points weighted by inverse squares; with triangulation the mean of the corners of its triangle that gives the cell, no value in no triangle or out of reach; with the GRIB library the value of the point found, or the mean of the four points found weighted by inverse distances (a point at distance 0 decides alone, unless the first point of the grid is missing), whether it works in parallel or not. All maps of the run, and those of any later run after any history of runs and restarts, use the same points.", "quantifier": "all histories of the tables, all grids (distances), all GRIB files and options as in C124, targets of at least 250 cells (inverse distance: at least one, in any number of pieces up to the rows; GRIB library in parallel: at least one cell for each row)", "why_tests_cant": "all grids, files, histories", "anchors": ["src/pyg2p/main/interpolation/__init__.py:Interpolator.interpolate_scipy", "src/pyg2p/main/interpolation/__init__.py:Interpolator.grib_nearest", "src/pyg2p/main/interpolation/__init__.py:Interpolator.grib_inverse_distance", "src/pyg2p/main/interpolation/scipy_interpolation_lib.py:ScipyInterpolation", "src/pyg2p/main/controller.py:Controller.execute", "src/pyg2p/main/writers/__init__.py:OutputWriter", "src/pyg2p/main/interpolation/__init__.py:Interpolator.interpolate"]}
{"id": "C168", "title": "First run on a grid with aggregation", "statement": "The same for runs that accumulate or average: every cell of the map of an interval holds what the method gives for the aggregated converted field, and later runs write the same maps.", "quantifier": "as C167, with the files and options of C125", "why_tests_cant": "all grids, files, histories", "anchors": ["src/pyg2p/main/interpolation/__init__.py:Interpolator.interpolate_scipy", "src/pyg2p/main/interpolation/__init__.py:Interpolator.grib_nearest", "src/pyg2p/main/interpolation/__init__.py:Interpolator.grib_inverse_distance", "src/pyg2p/main/interpolation/scipy_interpolation_lib.py:ScipyInterpolation", "src/pyg2p/main/controller.py:Controller.execute", "src/pyg2p/main/writers/__init__.py:OutputWriter", "src/pyg2p/main/interpolation/__init__.py:Interpolator.interpolate"]}
{"id": "C169", "title": "A run without table leaves nothing behind", "statement": "A run that would write a map if its table were there, when no table is registered: without permission to create tables it ends with error 8100; if the registry cannot be written, with the error of that check; if the table cannot be computed, with the error of the method. In each case no map is written, and tables and registry stay as they are. (Nearest neighbour, triangulation, and the GRIB library when not in parallel, cannot compute tables for targets of less than 250 cells: ZeroDivisionError.)", "quantifier": "all files, options, methods, states of the tables", "why_tests_cant": "all runs and states", "anchors": ["src/pyg2p/main/interpolation/__init__.py:Interpolator._intertable_filename", "src/pyg2p/main/interpolation/__init__.py:Interpolator.interpolate_scipy", "src/pyg2p/main/interpolation/__init__.py:Interpolator.grib_nearest", "src/pyg2p/main/controller.py:Controller.execute", "src/pyg2p/main/writers/__init__.py:OutputWriter", "src/pyg2p/main/interpolation/__init__.py:Interpolator.interpolate"]}
{"id": "C170", "title": "Commands that create their table", "statement": "A command without aggregation with PCRaster output, allowed to create tables (`-B`), on grids for which no table is registered, ends with status 0 and writes the maps of the selected messages to the output folder; every cell holds what the interpolation method gives for the converted field (C167), corrected for height and shown through the clone. Every later command with the same request, with or without `-B`, after any other runs and restarts, writes the same maps and ends with the same status.", "quantifier": "all command lines and command files (options as in C143), configurations, histories of the tables, grids, GRIB files as in C144, targets as in C167", "why_tests_cant": "whole commands, all inputs and histories", "anchors": ["src/pyg2p/main/interpolation/__init__.py:Interpolator._intertable_filename", "src/pyg2p/main/interpolation/__init__.py:Interpolator.interpolate_scipy", "src/pyg2p/main/__init__.py:pyg2p_exe", "src/pyg2p/main/__init__.py:execute", "src/pyg2p/main/context.py:ExecutionContext._define_exec_params", "src/pyg2p/main/context.py:Context._check_exec_params", "src/pyg2p/main/context.py:ExecutionContext._define_input_args", "src/pyg2p/main/context.py:ExecutionContext.add_args", "src/pyg2p/main/controller.py:Controller.execute", "src/pyg2p/main/writers/__init__.py:OutputWriter", "src/pyg2p/main/interpolation/__init__.py:Interpolator.interpolate"]}
{"id": "C171", "title": "Commands with aggregation that create their table", "statement": "The same for commands that accumulate or average: every cell of the map of an interval holds what the method gives for the aggregated converted field, and later commands with the same request write the same maps.", "quantifier": "as C170, with the files and options of C145", "why_tests_cant": "whole commands, all inputs and histories", "anchors": ["src/pyg2p/main/interpolation/__init__.py:Interpolator._intertable_filename", "src/pyg2p/main/interpolation/__init__.py:Interpolator.interpolate_scipy", "src/pyg2p/main/__init__.py:pyg2p_exe", "src/pyg2p/main/__init__.py:execute", "src/pyg2p/main/context.py:ExecutionContext._define_exec_params", "src/pyg2p/main/context.py:Context._check_exec_params", "src/pyg2p/main/context.py:ExecutionContext._define_input_args", "src/pyg2p/main/context.py:ExecutionContext.add_args", "src/pyg2p/main/controller.py:Controller.execute", "src/pyg2p/main/writers/__init__.py:OutputWriter", "src/pyg2p/main/interpolation/__init__.py:Interpolator.interpolate"]}
{"id": "C172", "title": "netCDF commands that create their table", "statement": "The same with netCDF output: the data set has one record per message or interval, at its time, and shows in every cell, with the precision of the packing, what the method gives for the field of the record; later commands with the same request store the same data set.", "quantifier": "as C170 and C171, with the data sets of C152 and C153", "why_tests_cant": "whole commands, all inputs and histories", "anchors": ["src/pyg2p/main/interpolation/__init__.py:Interpolator._intertable_filename", "src/pyg2p/main/interpolation/__init__.py:Interpolator.interpolate_scipy", "src/pyg2p/main/__init__.py:pyg2p_exe", "src/pyg2p/main/__init__.py:execute", "src/pyg2p/main/context.py:ExecutionContext._define_exec_params", "src/pyg2p/main/context.py:Context._check_exec_params", "src/pyg2p/main/context.py:ExecutionContext._define_input_args", "src/pyg2p/main/context.py:ExecutionContext.add_args", "src/pyg2p/main/writers/__init__.py:OutputWriter._write_maps_netcdf", "src/pyg2p/main/writers/netcdf.py:NetCDFWriter.write", "src/pyg2p/main/controller.py:Controller.execute", "src/pyg2p/main/writers/__init__.py:OutputWriter", "src/pyg2p/main/interpolation/__init__.py:Interpolator.interpolate"]}
{"id": "C173", "title": "Commands without table leave nothing behind", "statement": "A command that would write maps if its table were there, when no table is registered: if no table can be created, because it is not asked for or the configured folder of tables is not set, missing or not writable (whatever folder the command names), it ends with status 1; if the target has less than 250 cells and the method is nearest neighbour, triangulation, or one of the GRIB library without `-X`, it ends with ZeroDivisionError; with netCDF output it ends in these cases with AttributeError. No map is written, and tables and registry stay as they are.", "quantifier": "all command lines and command files (options as in C143), configurations, files, methods, states of the tables", "why_tests_cant": "whole commands, all states", "anchors": ["src/pyg2p/main/interpolation/__init__.py:Interpolator._intertable_filename", "src/pyg2p/main/__init__.py:pyg2p_exe", "src/pyg2p/main/__init__.py:execute", "src/pyg2p/main/context.py:ExecutionContext._define_exec_params", "src/pyg2p/main/context.py:Context._check_exec_params", "src/pyg2p/main/context.py:ExecutionContext._define_input_args", "src/pyg2p/main/context.py:ExecutionContext.add_args", "src/pyg2p/main/writers/__init__.py:OutputWriter._write_maps_netcdf", "src/pyg2p/main/writers/netcdf.py:NetCDFWriter.write", "src/pyg2p/main/controller.py:Controller.execute", "src/pyg2p/main/writers/__init__.py:OutputWriter", "src/pyg2p/main/interpolation/__init__.py:Interpolator.interpolate"]}
{"id": "C174", "title": "Commands that end early leave the tables alone", "statement": "Whatever tables and registry there are, and whether or not tables may be created: a command line that is not accepted, a request that lacks something (C146), a missing command file and a configuration command end with status 1; help is printed; a command whose indexed input holds no message of the parameter ends with status 0, in every format and with or without a second input file. Tables and registry stay as they are.", "quantifier": "all command lines and command files (options as in C143), configurations, states of the tables, input files", "why_tests_cant": "whole commands, all states", "anchors": ["src/pyg2p/main/interpolation/__init__.py:Interpolator._intertable_filename", "src/pyg2p/main/__init__.py:pyg2p_exe", "src/pyg2p/main/__init__.py:execute", "src/pyg2p/main/context.py:ExecutionContext._define_exec_params", "src/pyg2p/main/context.py:Context._check_exec_params", "src/pyg2p/main/context.py:ExecutionContext._define_input_args", "src/pyg2p/main/context.py:ExecutionContext.add_args", "src/pyg2p/main/controller.py:Controller.execute", "src/pyg2p/main/writers/__init__.py:OutputWriter", "src/pyg2p/main/interpolation/__init__.py:Interpolator.interpolate"]}
{"id": "C175", "title": "Commands with two input files that create both tables", "statement": "A command with aggregation, PCRaster output and a second input file on another grid, allowed to create tables, when none is registered for either grid, ends with status 0 and writes the maps of C155: first the intervals of the first file, every cell holding what the method gives for its aggregated field on the first grid, then those of the second file, with what the method gives on the second grid. Every later command with the same request, with or without `-B`, after any other runs and restarts, writes the same maps and ends with the same status.", "quantifier": "all command lines and command files (options as in C143, C155), configurations, histories of the tables, pairs of grids with different identifiers, pairs of GRIB files as in C155, targets as in C167", "why_tests_cant": "whole commands, all inputs and histories", "anchors": ["src/pyg2p/main/interpolation/__init__.py:Interpolator._intertable_filename", "src/pyg2p/main/interpolation/__init__.py:Interpolator.interpolate_scipy", "src/pyg2p/main/__init__.py:pyg2p_exe", "src/pyg2p/main/__init__.py:execute", "src/pyg2p/main/context.py:ExecutionContext._define_exec_params", "src/pyg2p/main/context.py:Context._check_exec_params", "src/pyg2p/main/context.py:ExecutionContext._define_input_args", "src/pyg2p/main/context.py:ExecutionContext.add_args", "src/pyg2p/main/controller.py:Controller.read_2nd_res_messages", "src/pyg2p/main/controller.py:Controller.execute", "src/pyg2p/__init__.py:Messages.append_2nd_res_messages", "src/pyg2p/main/controller.py:Controller.execute", "src/pyg2p/main/writers/__init__.py:OutputWriter", "src/pyg2p/main/interpolation/__init__.py:Interpolator.interpolate"]}
{"id": "C176", "title": "netCDF commands with two input files that create both tables", "statement": "The same with netCDF output: the one data set of both files (C166) shows in every cell, with the precision of the packing, what the method gives for the field of the record on the grid of its file; later commands with the same request store the same data set.", "quantifier": "as C175, with the data sets of C166", "why_tests_cant": "whole commands, all inputs and histories", "anchors": ["src/pyg2p/main/interpolation/__init__.py:Interpolator._intertable_filename", "src/pyg2p/main/interpolation/__init__.py:Interpolator.interpolate_scipy", "src/pyg2p/main/__init__.py:pyg2p_exe", "src/pyg2p/main/__init__.py:execute", "src/pyg2p/main/context.py:ExecutionContext._define_exec_params", "src/pyg2p/main/context.py:Context._check_exec_params", "src/pyg2p/main/context.py:ExecutionContext._define_input_args", "src/pyg2p/main/context.py:ExecutionContext.add_args", "src/pyg2p/main/controller.py:Controller.read_2nd_res_messages", "src/pyg2p/main/controller.py:Controller.execute", "src/pyg2p/__init__.py:Messages.append_2nd_res_messages", "src/pyg2p/main/writers/__init__.py:OutputWriter._write_maps_netcdf", "src/pyg2p/main/writers/netcdf.py:NetCDFWriter.write", "src/pyg2p/main/controller.py:Controller.execute", "src/pyg2p/main/writers/__init__.py:OutputWriter", "src/pyg2p/main/interpolation/__init__.py:Interpolator.interpolate"]}
{"id": "C177", "title": "Averages without a start begin at the first interval", "statement": "A command that averages (with or without half weights) and gives no start, or none in the command file, ends in the same way, writes the same maps or data set, and leaves the same tables as the command with the start at the aggregation step, provided the step after the last one of the run (with two input files: after the start of the first message of the second) is not a multiple of the aggregation step. With one or two input files, PCRaster and netCDF output, known tables or a folder of tables.", "quantifier": "all command lines and command files (options as in C143), configurations, states of the tables, indexed GRIB files with the messages up to the end on one grid, at different steps, with one missing value and readable dates", "why_tests_cant": "whole commands, all inputs", "anchors": ["README.md", "src/pyg2p/main/__init__.py:pyg2p_exe", "src/pyg2p/main/__init__.py:execute", "src/pyg2p/main/context.py:ExecutionContext._define_exec_params", "src/pyg2p/main/context.py:Context._check_exec_params", "src/pyg2p/main/context.py:ExecutionContext._define_input_args", "src/pyg2p/main/context.py:ExecutionContext.add_args", "src/pyg2p/main/controller.py:Controller.read_2nd_res_messages", "src/pyg2p/main/controller.py:Controller.execute", "src/pyg2p/__init__.py:Messages.append_2nd_res_messages", "src/pyg2p/main/writers/__init__.py:OutputWriter._write_maps_netcdf", "src/pyg2p/main/writers/netcdf.py:NetCDFWriter.write", "src/pyg2p/main/controller.py:Controller.execute", "src/pyg2p/main/writers/__init__.py:OutputWriter", "src/pyg2p/main/interpolation/__init__.py:Interpolator.interpolate"]}
{"id": "C178", "title": "Averages without a start for every end", "statement": "A command that averages without half weights and gives no start writes the maps of the command that starts at the aggregation step, also when the step after the end of the run is a multiple of the aggregation step; in particular hourly averages need no start.", "quantifier": "as C177, one input file, messages that are not accumulated", "why_tests_cant": "whole commands, all inputs", "anchors": ["src/pyg2p/main/__init__.py:pyg2p_exe", "src/pyg2p/main/__init__.py:execute", "src/pyg2p/main/context.py:ExecutionContext._define_exec_params", "src/pyg2p/main/context.py:Context._check_exec_params", "src/pyg2p/main/context.py:ExecutionContext._define_input_args", "src/pyg2p/main/context.py:ExecutionContext.add_args", "src/pyg2p/main/writers/__init__.py:OutputWriter._write_maps_netcdf", "src/pyg2p/main/writers/netcdf.py:NetCDFWriter.write", "src/pyg2p/main/controller.py:Controller.execute", "src/pyg2p/main/writers/__init__.py:OutputWriter", "src/pyg2p/main/interpolation/__init__.py:Interpolator.interpolate"]}
{"id": "C179", "title": "How commands with two input files end", "statement": "A command with two input files ends the same way whatever the output format: if the first file holds no message of the parameter, with status 0; if the maps cannot be made, with the status of the error (0 if no message is taken, nothing written); otherwise with status 0 and the maps or the data set, unless the data set is refused for its packing, clone or units, in the cases of one input file.", "quantifier": "all command lines and command files (options as in C143, C155), configurations, pairs of input files, formats", "why_tests_cant": "whole commands, all inputs", "anchors": ["src/pyg2p/main/__init__.py:pyg2p_exe", "src/pyg2p/main/__init__.py:execute", "src/pyg2p/main/context.py:ExecutionContext._define_exec_params", "src/pyg2p/main/context.py:Context._check_exec_params", "src/pyg2p/main/context.py:ExecutionContext._define_input_args", "src/pyg2p/main/context.py:ExecutionContext.add_args", "src/pyg2p/main/controller.py:Controller.read_2nd_res_messages", "src/pyg2p/main/controller.py:Controller.execute", "src/pyg2p/__init__.py:Messages.append_2nd_res_messages", "src/pyg2p/main/writers/__init__.py:OutputWriter._write_maps_netcdf", "src/pyg2p/main/writers/netcdf.py:NetCDFWriter.write"]}
{"id": "C180", "title": "One of two tables missing", "statement": "A command with aggregation and two input files on different grids, when one of the two interpolation tables is missing and cannot be created (not asked for, or the configured folder cannot be used), ends with status 1, writes nothing and leaves tables and registry as they are.", "quantifier": "all command lines and command files (options as in C143, C155), configurations, histories of the tables, pairs of files as in C155, PCRaster and netCDF output", "why_tests_cant": "whole commands, all inputs and histories", "anchors": ["src/pyg2p/main/interpolation/__init__.py:Interpolator._intertable_filename", "src/pyg2p/main/__init__.py:pyg2p_exe", "src/pyg2p/main/__init__.py:execute", "src/pyg2p/main/context.py:ExecutionContext._define_exec_params", "src/pyg2p/main/context.py:Context._check_exec_params", "src/pyg2p/main/context.py:ExecutionContext._define_input_args", "src/pyg2p/main/context.py:ExecutionContext.add_args", "src/pyg2p/main/controller.py:Controller.read_2nd_res_messages", "src/pyg2p/main/controller.py:Controller.execute", "src/pyg2p/__init__.py:Messages.append_2nd_res_messages", "src/pyg2p/main/writers/__init__.py:OutputWriter._write_maps_netcdf", "src/pyg2p/main/writers/netcdf.py:NetCDFWriter.write", "src/pyg2p/main/controller.py:Controller.execute", "src/pyg2p/main/writers/__init__.py:OutputWriter", "src/pyg2p/main/interpolation/__init__.py:Interpolator.interpolate"]}
{"id": "C181", "title": "The API describes every parameter", "statement": "For every configured parameter that commands can use, the API gives a description: a line with its short name, description and unit, then one line per conversion, in the order of the configuration, with its identifier, unit, function and cut-off; what is described can be used by a command, with the described values. A name that is not configured is refused with error 1100; without a name the API gives the names of the user's parameters, one per line.", "quantifier": "all configurations of parameters (any attribute, or `Conversion`, missing; one conversion or a list), all names", "why_tests_cant": "all configurations", "anchors": ["src/pyg2p/main/api.py:Pyg2pApi.parameter_details", "src/pyg2p/main/config.py:ParametersConfiguration.get", "src/pyg2p/main/config.py:ParametersConfiguration.get_conversion"]}
{"id": "C182", "title": "An API run returns the maps of the command", "statement": "Running the API on an indexed GRIB file returns the maps the command with the same settings writes: one per message, or per interval of the aggregation, keyed by different steps in the order of their ends (the times of the netCDF data set of the command), each cell holding what the interpolation table gives for the converted and aggregated field, corrected, and outside the clone the missing value of the clone; it fails exactly when the command does, with the same error.", "quantifier": "all settings, GRIB files, tables, clones; the values for indexed files with messages on one grid as in C124, C125", "why_tests_cant": "whole runs, all inputs", "anchors": ["src/pyg2p/main/api.py:Pyg2pApi.execute", "src/pyg2p/main/api.py:Pyg2pApi._mask_values", "src/pyg2p/main/controller.py:Controller.execute", "src/pyg2p/main/writers/__init__.py:OutputWriter", "src/pyg2p/main/interpolation/__init__.py:Interpolator.interpolate"]}
{"id": "C183", "title": "An API run with two input files returns the maps of the command", "statement": "Running the API with a second input file (`inputFile2`) returns the maps the command with `-i` and `-I` writes: first one for each interval of the first file, then one for each interval of the second, keyed by different steps with the ends of the intervals, in order, each cell holding what the table of its grid gives for the converted and aggregated field, corrected, and outside the clone the missing value of the clone; it fails exactly when the command does, with the same error.", "quantifier": "all settings, pairs of GRIB files, tables, clones; the values for indexed files as in C137", "why_tests_cant": "whole runs, all inputs", "anchors": ["src/pyg2p/main/api.py:Pyg2pApi.execute", "src/pyg2p/main/api.py:ApiContext._define_exec_params", "src/pyg2p/main/controller.py:Controller.read_2nd_res_messages", "src/pyg2p/main/controller.py:Controller.execute", "src/pyg2p/__init__.py:Messages.append_2nd_res_messages", "src/pyg2p/main/controller.py:Controller.execute", "src/pyg2p/main/writers/__init__.py:OutputWriter", "src/pyg2p/main/interpolation/__init__.py:Interpolator.interpolate"]}
{"id": "C184", "title": "Splitting does not change a run", "statement": "A command that creates its table and whose file asks for the target grid to be split (`@num_of_splits`) ends in the same way, writes the same maps or data set and leaves the same stored tables as the same command without splitting; also with two input files.", "quantifier": "all commands, settings, files, grids, numbers of splits, all stored tables", "why_tests_cant": "whole runs, all inputs", "anchors": ["src/pyg2p/main/interpolation/scipy_interpolation_lib.py:interpolate", "src/pyg2p/main/interpolation/__init__.py:Interpolator.interpolate_scipy", "src/pyg2p/main/__init__.py:pyg2p_exe", "src/pyg2p/main/__init__.py:execute", "src/pyg2p/main/context.py:ExecutionContext._define_exec_params", "src/pyg2p/main/context.py:Context._check_exec_params", "src/pyg2p/main/context.py:ExecutionContext._define_input_args", "src/pyg2p/main/context.py:ExecutionContext.add_args"]}
{"id": "C185", "title": "API runs find and create interpolation tables as commands do", "statement": "An API run that is given the same settings and finds the same stored tables as a command ends in the same way (same error or none), returns the maps the command writes, and leaves the same tables: it creates the table of a new grid when it may, later commands and API runs use that table and give the same maps, and an API run can use the tables made by commands; also with two input files.", "quantifier": "all methods of interpolation, stored tables, settings, files, histories of runs and restarts", "why_tests_cant": "whole runs, all inputs and histories", "anchors": ["src/pyg2p/main/api.py:Pyg2pApi.execute", "src/pyg2p/main/interpolation/__init__.py:Interpolator.grib_nearest", "src/pyg2p/main/interpolation/__init__.py:Interpolator.grib_inverse_distance", "src/pyg2p/main/interpolation/__init__.py:Interpolator.interpolate_scipy", "src/pyg2p/main/interpolation/__init__.py:Interpolator.aux_for_intertable_generation"]}
{"id": "C186", "title": "An API run built from a dictionary returns the maps of the command line", "statement": "`Pyg2pApi(ApiContext(d)).execute()`, where the dictionary `d` has the options a command line gives and the sections of its command file, returns the maps the command writes, ends with the same error exactly when the command fails, and leaves the same stored tables; also with two input files.", "quantifier": "all command lines, command files, configurations, folders, GRIB files, stored tables", "why_tests_cant": "whole programs, all inputs", "anchors": ["src/pyg2p/main/api.py:ApiContext._define_exec_params", "src/pyg2p/main/api.py:ApiContext.__init__", "src/pyg2p/main/api.py:Pyg2pApi.execute", "src/pyg2p/main/__init__.py:pyg2p_exe", "src/pyg2p/main/__init__.py:execute", "src/pyg2p/main/context.py:ExecutionContext._define_exec_params", "src/pyg2p/main/context.py:Context._check_exec_params", "src/pyg2p/main/context.py:ExecutionContext._define_input_args", "src/pyg2p/main/context.py:ExecutionContext.add_args", "src/pyg2p/main/controller.py:Controller.execute", "src/pyg2p/main/writers/__init__.py:OutputWriter", "src/pyg2p/main/interpolation/__init__.py:Interpolator.interpolate"]}
