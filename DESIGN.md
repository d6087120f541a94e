# Formal model of ec-jrc/pyg2p in Lean 4

Source: `/repo` (pinned commit, read as text, never run). Model and proofs: `/verif/lean/Verif`.
Tool: Lean 4.33.0 + single Mathlib modules. Build: `cd lean && lake build` (about 2 minutes).

Contents: 1 trusted base, 2 what is modelled, 3 conventions, 4 plan per property, 5 where the code violates its
properties, 6 testing the theorems.

## 1. Trusted base

* Lean's kernel. Every theorem named in `MANIFEST.json` depends at most on the axioms `propext`,
  `Classical.choice`, `Quot.sound` (checked with `#print axioms`); no own axioms, no tactic that relies on compiled code.
* The reading of the Python text: every definition of `Verif/Model` cites the file and lines it models and says where
  it simplifies.
* Library behaviour taken as given (not in the repository):
  * numexpr ignores masks and evaluates `/` as true division; the meaning of a user's formula text is an oracle;
  * `np.append` on a masked array gives an array without mask; `ndarray += MaskedArray` keeps a plain array
    holding the raw data; `ma.masked_where(None, x)` is a masked array with nothing masked; masked arithmetic
    unions masks and keeps the left operand's raw data in masked cells; `ma.filled` replaces masked cells;
  * numpy slices are views, `+=` on an array changes it in place, arithmetic makes a new array (`Model/Memory`);
  * `np.argmax` gives the first maximum; `np.argsort` any sorting permutation; `np.argpartition` its documented contract only;
    `np.array_split` gives the first `l % n` chunks one more element; `np.save` appends `.npy`, and `np.load` gives back what `np.save` wrote;
  * CPython's `argparse` (3.8 to 3.11: `-x v`, `-xv`, `--long v`, `--long=v`, switches, unique prefixes of long names,
    negative numbers as values, last value wins) as read in `Model/ArgParse`;
  * dask's `bag.compute` returns results in input order;
  * eccodes calls are oracles (`codes_grib_find_nearest` either raises `GribInternalError` or returns points; asked in no message, as by an API run (C185), it raises another exception);
  * scipy: `KDTree.query` returns the k nearest points in order of distance (index `n` and infinite distance for none);
    `Delaunay` gives a list of triangles with their neighbours, `find_simplex` a triangle that contains the point or -1;
    `fsolve` returns any pair of numbers (statements about exactness assume a root); `quad` an increasing integral;
  * netCDF4: packing rounds half to even, reading masks `missing_value`, `_FillValue` and the default fill value;
  * the file system is a map from paths to contents; JSON dump/load are inverse on JSON values; an interrupted write leaves a
    file that is not valid;
  * `cmath`/`math` functions are the real functions (`atan2` = `Complex.arg`).
* Numbers. Grid values are `Num`: a rational number or `nan` (NaN and infinities, e.g. a division by zero).
  Rounding of IEEE doubles is **not** modelled anywhere; geometry and exponentials use real numbers.

## 2. What is modelled

| source (`src/pyg2p`) | model | not modelled |
|---|---|---|
| `__init__.py` (Step, GribGridDetails, Messages) | `Step`, `Messages`, `Text` (decimal rendering) | logging |
| `main/__init__.py` | `Exe` | the text of log lines |
| `main/api.py` | `Strings` (Command), `Api`, `Details`, `ApiRun` (whole runs) | `str` of JSON values; a `Conversion` neither object nor list |
| `main/config.py` | `UserConf`, `Config` | FTP transport (outcomes only) |
| `main/context.py` | `Context`, `Exe`, `ArgParse` (the option table and CPython's reading of an argument vector) | argparse's own messages; `--` and abbreviated long names (read, but with no theorem of their own); JSON values that are lists |
| `main/controller.py` | `Controller`, `Exe`; `Pipeline` (whole runs: conversion, aggregation, interpolation, correction, writing), `FileRun` (from the GRIB file) | log lines |
| `main/interpolation/__init__.py` | `Tables`, `TableApply` | printing |
| `main/interpolation/grib_interpolation_lib.py` | `GribLib` | dask processes as such (the GRIB handle `gid` in a worker process) |
| `main/interpolation/latlong.py`, `main/readers/netcdf.py`, `main/readers/pcr.py` | `Maps`, `Tables` (identifiers) | gdal/netCDF decoding (the values, attributes and types are inputs) |
| `main/interpolation/scipy_interpolation_lib.py` 257-315, 665-775 | `ScipyGeom`, `Sphere`, `ScipyNear` | DEBUG_* branches (constants are False) |
| — 323-515, 774-1077 (invdist, ADW, CDD) | `ScipyWeights`, `ScipyCdd` | as above |
| — 92-256, 1079-1343 (bilinear) | `Bilinear`, `Angle` | as above |
| — 1345-1520 (triangulation, bilinear_delaunay) | `ScipyGeom`, `Delaunay` | as above; plots |
| `main/manipulation/aggregator.py` | `Aggregator`; `Memory` (array objects) | |
| `main/manipulation/conversion.py` | `Conversion` | |
| `main/manipulation/correction.py` | `Correction` | |
| `main/readers/grib.py` | `Reader` | eccodes decoding |
| `main/writers/*.py` | `Writers`, `Maps` (coordinates of the output) | file encodings, constant attributes |
| `util/strings.py`, `util/files.py`, `util/numeric.py`, `util/generics.py` | `Strings`, `Numeric`, `GribLib` (progress step) | unused helpers (`is_xml`, `copy_dir`, ...), profiling |
| `exceptions.py` | error codes as numbers | message texts |

## 3. Conventions

* A Python exception is a value of `PyErr` (`IndexError`, `KeyError`, `app code`, ...) in `Except`. An `AssertionError` of the
  bilinear search is `valueError`.
* Python `dict` is an association list in insertion order, assignment to an existing key keeps its place.
* Python `range`, negative indexing (`l[-1]`), `bisect` (the real binary search) and `sorted` (stable) are modelled as such.
* An n-cell array is `Arr n`: data `Fin n → Num` and an optional mask (`none` = plain ndarray).
* Text is a list of characters; letters and digits are ASCII.
* Where the code violates the English property, the negation is proved (for all inputs that trigger it where possible,
  otherwise on a concrete run) and the part that holds is proved in a theorem with suffix `_partial`. Such a property is `partial` in
  the manifest even if everything that can be said about it is proved.
* Layout: `Verif/Py.lean` (Python runtime), `Verif/Model/*` (the code), `Verif/Spec/*` and the `Spec` namespaces (small
  independent specifications), `Verif/Lemmas/*`, `Verif/Props/*` (the property theorems, each with a non-vacuity `example`).
* Error codes in theorem statements are literal numbers, never the model's constants.

## 4. Plan per property

| id | model | how it is proved |
|----|-------|------------------|
| C01 | `_accumulation` loop as a fold over `range` with the ordered dict as state | loop invariant: original entries never change, previous step present; output formula per iteration |
| C02 | same | induction on the range; keys = map over the range |
| C03 | same | telescoping sum by induction, for every successful run |
| C04 | same | first missing step: exact formula from `bisect` on a sorted list (partial); witness run where a later missing step crashes |
| C05 | same | witness that the weight is evaluated at the wrong time; partial: holds iff weight equal / error cases |
| C06 | same | run from 0 = run from step (definitional unfolding of the first statement); zero field lemmas |
| C07 | same + masks | partial for accumulation (mask of the interval start), negation for the others |
| C08-C11 | `_average` | fold = sum over hours of the step function spec; min/max bounds; witness for start 0; weights sum lemma |
| C12 | `_instantaneous` | per-iteration formula |
| C13 | `do_manipulation` | case analysis for all inputs |
| C14 | all three | success iff conditions, error otherwise |
| C15 | aggregator + converter | simulation: run on scaled input = scaled run |
| C16 | aggregator, functional and with array objects | locality theorem (agreement near the interval); simulation between the two models |
| C17-C19 | `Converter` | per cell; string rewriting on `List Char` |
| C20-C21 | `Corrector` | per cell; cache as state machine over histories |
| C22-C25 | `Step`, `GribGridDetails`, `Messages` | algebra; injectivity of the rendering; finite table 0..2359 lifted |
| C26-C31 | `GRIBReader` as a state machine over an abstract message store with handles | refinement to `List.filter`; handle accounting invariant |
| C32-C36 | `Context` | decision logic over option records |
| C37-C38 | `pyg2p_exe` | decision logic over phase outcomes; what is held after every failure |
| C39-C46, C81, C109 | configuration classes over an abstract file system | map lemmas; state machine histories |
| C47-C49, C102, C103 | `util/strings.py`, `util/files.py`, `api.Command` | string lemmas on `List Char`, induction over words and quoted items |
| C50-C54 | writers | string and per-cell lemmas; loop invariant for `write_maps` |
| C55-C60 | `Interpolator` table management and application | termination by counting existing files; state machine; per-cell sums |
| C61-C66 | table builders with an oracle for nearest points | list lemmas (filter/zip alignment, array_split) |
| C67 | the loop over splits of the target | splitting and concatenating is the identity for methods that work cell by cell; failures of the others |
| C68-C71, C83, C84, C87, C89, C90 | distance and directional weights (ADW, CDD) | real algebra over lists of neighbours; loop = broadcast by induction; trigonometric bounds |
| C72-C75, C85, C86 | bilinear/triangulation weights and geometry | polynomial identities (`linear_combination`), sign arguments, index arithmetic |
| C76, C88 | `to_3d`, rotations | matrix identities; order of distances |
| C77-C80 | `Controller.execute` | composition of the previous models |
| C82 | table creation as a sequence of file-system actions cut at any point | case analysis over prefixes of the action list; later runs on the resulting store |
| C91 | table identifiers | which inputs the identifier is a function of |
| C92-C95 | `ApiContext`, `Pyg2pApi` | comparison with the command-line model, option by option and map by map |
| C96-C100 | the bilinear corner search as a `partial_fixpoint` state machine | partial-correctness induction (invariant at every exit); termination measure where it exists, a cycle where not |
| C101 | aggregation and conversion over a heap of array objects | simulation with the functional model; frame property |
| C104-C108 | target maps, DEM and output coordinates | min/max and row/column lemmas; counterexample maps |
| C110-C116 | Delaunay pairing and the resulting table | invariant of the pairing loop over cells; barycentric bounds; counterexample meshes |
| C117-C123 | whole runs (`Pipeline`): messages to files | composition of the earlier theorems; the cell of a file as a function of the messages; counterexample runs |
| C127, C128 | corners given up by the bilinear search; global and regional source grids of the triangulation (`triSource`) | induction over the side, order of keys; columns as multiples of the spacing |
| C129, C130 | bounds of the cells of whole runs (`RunIn.pcraster`) | mean weights over the table entry, the run theorems of C117-C119 |
| C131, C132 | whole runs that look up their table for every map (`Model/StoreRun`) | invariant of the table store over histories, induction over the maps |
| C133, C134 | source of the surface heights and corrected runs from files (`Model/Heights`: `has_geopotential`, `geo_file`, `_read_geo`) | selection lemmas of the reader, composition with C42 and C124 |
| C135, C136 | runs over a change of grid, from the messages to the files (`Model/Pipeline`) | the two aggregations as lists of intervals (C02, C08), disjointness and order of the keys, grid flags of the writer loop |
| C137–C139 | commands with two input files (`Model/TwoFiles`: `read_2nd_res_messages`, `append_2nd_res_messages`) | selection lemmas of C124 for each file, composition with C135, C136 |
| C140–C142 | `add_args` and CPython's argparse, parsed arguments as options, `Command.cmds_map` (`Model/ArgParse`) | induction over the items written, each read as one setting; composition with C32 and C48 |
| C143–C146 | `pyg2p_exe`, `ExecutionContext`, `execute` on one input file (`Model/CommandRun`) | options by C140 and C32, paths by C43, lookups by C40, checks by C33; the run is then the one of C124–C126 |
| C147 | bound of the neighbour search (`Model/ScipyNear`) | the bound as a multiple of the largest spacing, then C61 |
| C148 | reference time of the messages (`GMsg.referenceTime`, `firstTime`) in whole runs | the first selected message is one of those taken; C25 |
| C149–C151 | data set of a run from the GRIB file (`Model/NetcdfRun`: `_write_maps_netcdf`, `NetCDFWriter.write`) | the maps are those of the PCRaster run on a bare clone (C124, C125); time axis by C51, cells by C52, C122 |
| C152–C154 | commands with netCDF output (`Model/CommandRun`: `ncOut`, `netcdfRun`) | options by C140 and C32, then C149–C151; crash by the order of the phases (C37) |
| C159 | shortened names and grouped switches (`candidates`, `chain` of `Model/ArgParse`) | uniqueness of the completion; induction over the letters and over the arguments before them |
| C160, C161 | instantaneous extraction and half-weight averages as whole runs and commands, PCRaster and netCDF (`Aggregator`, `Pipeline`, `FileRun`, `CommandRun`, `NetcdfRun`) | C11–C14 for the aggregation, then as C124, C145, C150, C153 |
| C162, C163 | one file with a change of grid, PCRaster and netCDF (`FileRun`, `Reader`, `NetcdfRun`). Simplification: both grids have the same number of points | the reader keeps the order of the file when only one name matches (positions found are increasing), so the grouping splits the messages at the change; then C135, C136 with the two parts; times from C78 |
| C164–C166 | two input files with netCDF output, and commands with two grids (`NetcdfRun.datasetTwo`, `CommandRun.netcdfSecond`) | the maps of C137/C162 without clone (`FileIn.bare`), then the packing of C150 map by map; the command made of command line and file as in C143 |
| C167–C169 | runs that compute, store and reuse their table (`TableRun.Method.build`, `FileIn.pcrasterIn`) | the table of each method by C61–C64, C67, C75, C128 (`method_table`), its creation by C55–C57, the maps by C124/C125 with this table, later runs by C131; failures: the first lookup of the map loop |
| C170–C173 | commands that look up, create and reuse their table (`TableCommand.runIn`) | settings as C143 (`asked_lookup`), then C167–C169; netCDF: the map loop of C131 with the maps of C152, C153 |
| C174 | the same commands when they end early | one lemma on the branches of `runIn` before a table is looked up, with the facts of C146; C126 for files without the parameter |
| C175, C176 | commands with two input files on a folder of tables | the two lookups do not disturb each other (`ready_other`: other identifier, other file name), so the map loop makes the maps of the known tables (`ready_loop`); then C155, C166. Assumes `GridsApart`: identifiers that differ only in `$` and `_` name the same table |
| C177, C178 | averages without a start: commands with one or two files, PCRaster, netCDF, tables (`Props/AverageZero.lean`) | `FileIn.settings` from the two starts differ in the start only (same window), the aggregation gives the same by C10, everything after depends on the fields only; failure: the extra interval of the loop from 0 has no message |
| C179, C180 | how commands with two files end; one of two tables missing (`Props/TwoFileEnds.lean`, `Props/TwoTables.lean`) | `netcdfSecond` case by case; C180: the loop of maps uses the first table for the first `n1` fields (`SplitsAt`), so it stops at the first field of the second grid |
| C181 | descriptions of parameters (`Model/Details.lean`, `Props/Details.lean`) | entries with any attribute missing; text as head line and `Forall₂` of the conversion lines, joined by line breaks; complete iff no KeyError; a described conversion is found by the command |
| C182 | whole API runs (`Model/ApiRun.lean`, `Props/ApiRun.lean`) | same fields and same rendered maps as the PCRaster run; the keys of the fields are different steps (invariant of every `Dict.set` loop), so building and sorting the dictionary changes nothing; values from C124, C125 |
| C183 | API runs with two input files (`Model/ApiRun.lean`, `Props/ApiRunTwo.lean`) | the comparison of C182 holds for any settings with distinct keys, so also for those of two files; end steps from C164, values from C137 |
| C184 | commands with `@num_of_splits` (`Model/TableRun.lean`, `Model/TableCommand.lean`, `Props/SplitRuns.lean`) | the table built in pieces equals the table built in one (C67), and a command depends on the table only (`table_core…`); triangulation needs pieces of at least 250 cells, `Answers` (C167–C176) allows them; where pieces fail the whole command fails |
| C185 | API runs with tables looked up or created for every map (`Model/ApiStore.lean`, `Props/ApiStore.lean`) | the loop over the maps does not depend on what is done with a map, so API and command have the same loop; then C131/C167 (`WritesAlways`) for later runs; with GRIB methods the API's own interpolator has no message, its build is an error |
| C186 | API runs from their dictionary and commands (`Model/ApiCommand.lean`, `Props/ApiCommand.lean`) | options read with `Dict.get?` by both; parsed options have every key with a typed value (`parsed_fitted`); resolved values equal (`lookup_eq`), checks equal but for the output folder (`check_iff`); then C182–C185; partial: see note |
| C155–C158 | commands with two input files (`Model/CommandRun`: `pcrasterSecond`) | settings as C143, then C137, C138, C79 |
| C124-C126 | whole runs from the GRIB file (`FileRun`): information, window, selection, messages, maps | the selection as a filter of the file, up to order; then C117-C119 |

Nothing in the list is left out as inexpressible; floating-point rounding is excluded everywhere.

## 5. Where the code violates its properties

Each line is proved (theorem names in the notes of `MANIFEST.json`).

* **Aggregation.** C04 a gap after the first message can raise IndexError although both neighbours exist. C05 the first interval start is
  interpolated with the weight of the interval end. C07 only the mask of the interval start survives. C10 average from 0 differs from average from `step` when
  end+1 is a multiple of the step. C14 half-weight averages use what is there. C16 before the first message the accumulation extrapolates from the last one.
  C80 the numeric missing value is averaged as a number. C160 the extraction of instantaneous fields begins one step before the requested start. C178 averages without a start: IndexError when the step after the end is a multiple of the aggregation step, so hourly averages always fail.
* **Conversion and correction.** C18 every `x=` is removed from a formula. C19 the cut-off drops the mask. C20 cells outside the geopotential grid are corrected with garbage. C21 cached correctors keep
  the settings of an earlier run.
* **Messages and reader.** C23 longitude -0.0 gives a second identifier. C25 reference time wrong before 10:00. C26 upper-case short names select twice. C27/C31 files that
  cannot be indexed: second scan empty. C29 messages dropped/overwritten. C30 a second selection leaks handles.
* **Options.** C32 `-f 1`, `-x 1`, `-F notset` lose against JSON; JSON 0 ignored. C33 `tend = 0` unchecked, missing DEM reported as 4200, numeric level AttributeError. C35 `tend = 0`. C37 a netCDF run that fails before the data set exists
  ends in AttributeError. C38 `-W`, `-K`, `-g` never work. C92-C95 the API ignores half weights and section folders, requires start/end, returns NaN, never closes readers, never creates GRIB tables, lists the user's parameters only.
* **Configuration.** C40 values cut at a second `=`; line without `=` IndexError. C41 undefined `{VAR}` KeyError, names with digits never replaced, malformed braces. C43 double registration. C181 KeyError for parameters without conversion or cut-off attribute.
  C44 empty configuration unreadable. C46 truncated download kept. C48 `Command()` AttributeError, flags misalign. C49 file names unbounded. C81 check always TypeError.
* **Writers and maps.** C50 PCRaster names collide. C52 full clone ValueError, masked cells raw, values packed to the fill value lost, float clone without attributes ValueError. C53 clone values near the missing value.
  C104 square map stored (lon, lat) read transposed. C105 upside-down map shares table ids. C106 NaN latitude. An empty `-o ''` writes to `/`. The time axis of two files has the unit of the first. C107 DEM marks. C108 UnboundLocalError/IndexError.
* **Two resolutions.** C78 intervals near the change lost; C79 without aggregation step TypeError. C156 two-file commands without an end write nothing and end with status 0; C157 without aggregation TypeError; C158 messages accumulated from step 0: nothing is written for the first file. C179 their netCDF commands end with AttributeError where maps cannot be made; C180 maps of the first file stay behind when the second table is missing.
* **Whole runs.** C121, C122 where the missing values of target coordinates and clone differ, cells without source are numbers in the PCRaster files and missing in the netCDF file; search-tree tables and C182, C183 whole API runs ignore half weights and keep NaN inside the clone; C185 an API run can never create a table with a GRIB method (its interpolator is never given the messages). C186 a dictionary without `start` or `end` ends in `KeyError`, where the command line takes defaults.
  cut-off write the number under the mask. C126 files without index, or with the parameter only under its other names, give error 3000. C123 missing cells are corrected as data; cells with unknown heights get 9.97e36. C133 a geopotential of any level in the input replaces the configured surface geopotential, on both grids of the run. C138 with two input files and no end in the command, the window ends with the first file, so a second file that continues it gives error 3000. C139 the missing value of the first file is used for the second. C141 a negative number in scientific notation cannot follow an option (`-O -1e-3`). C148 runs on forecasts of 03:00 to 09:59 end with ValueError. C142 `with_log_dir` sets an option that does not exist. C151 a run without any interval writes no PCRaster map and ends well, but ends with ValueError as netCDF. C154 a netCDF command whose maps cannot be made, or with an unknown `@format`, ends with AttributeError.
* **Tables.** C56 GRIB methods ignore compressed tables; no global folder TypeError. C58 identifiers ignore pixel-size fractions and source latitudes; user table shadows global one. C59 stale cache. C60 masks lost. C82 crash while dumping the
  registry: 8200 for ever; crash while recreating: damaged table used. C91 CDD settings and `rotated_target` not in the identifier. C173 the right to write is checked for the configured folder of tables, not for the one given with `-N`.
* **GRIB methods.** C63 NaN longitudes misalign; C64 longitude -1e10 misaligns; a cell exactly at a source point is missing when the first point of the grid is (`grib_invdist_origin_masked`); C66 1..249 target cells ZeroDivisionError.
* **scipy methods.** C62 beyond the bound NaN; C67, C184 nearest always fails with splits, triangulation crashes when a piece has fewer than 250 cells; Hofstra, MixHofstraShepard fail with splits, NewEtAl reads the wrong row; C68 radius rule off by one at 4 and 10 points; C83 equidistant stations NaN, CDD not exact at stations; C84 longitude convention;
  C87 CDD lookup half a cell off; C88 rotated target not scaled; C89 options by position; C90 OnlyTOP10 may drop a large weight.
* **Bilinear and triangulation.** C74 collinear points; C75 periodic remap off by one; C76 inverse rotation; C85 south of the equator; C86 on the equator; C128 regional grids that begin at the date line are taken as global, global grids listed by columns are not, target longitudes beyond 180 are left out; C97 exhausted retries use the corners of the cell before; C98 endless loop; C99 no solution;
  C100 AssertionError; C113 IndexError; C114 order of cells; C115 NaN; C116 planes.

## 6. Testing the theorems

`tools/seed.py` applies hand-written bugs (`seeded/seeds*.py`), `tools/automut.py` every one-token edit of a list of
kinds in every definition of the model, and reports the theorems that no longer hold (`seeded/LOG.jsonl`). Surviving edits
led to stronger theorems (field `tightened`) or are equivalent (unreachable branch, two error kinds the statement leaves open). The lines `au…` are the campaign of one-token edits: 2193 edits that build, 1958 caught at once, 137 after theorems were added, 98 still not (field `outcome`).
