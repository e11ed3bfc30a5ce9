# Formal model of cedadev/cis in Lean 4 — design

## Trusted base

* Lean 4.33.0's kernel. Axioms used by theorems: at most `propext`, `Classical.choice`, `Quot.sound`
  (no axioms of our own, no compiled-code tactics).
* The reading of `/repo` as text: the code is not run. Every model definition cites the file and lines it models
  and states its simplifications.
* Numbers: Python floats/numpy floats are modelled by exact numbers (`ℚ`, or an arbitrary linearly ordered field `K`;
  `ℝ` only where trigonometry is needed). Overflow, infinities and NaN are not modelled, except that NaN/mask is
  an explicit constructor (`Option`) where the code branches on it. Rounding is modelled only in `Fp/` (C132–C136, C138: longitudes,
  aggregation grids, separations, means, times, linear interpolation): numbers `m 2^e` with `|m| ≤ 2^53`, any map to a nearest one (IEEE 754's is shown to
  be one), unbounded exponents, no signed zero.
* Python ints are `Int`/`Nat`; Python strings are `List Char` (or `String`); exceptions are values (`Except`/`Option`).
* External libraries are parameters or are modelled by their documented contract: numpy (`searchsorted`, `argsort`,
  `roll`, masked arrays), iris (coordinates, `wrap_lons`, cubes), pandas (`iloc`), `glob`, `heapq`, `datetime` (proleptic
  Gregorian calendar). The contract used is stated at the definition.
* Modelled by their documented contract only: matplotlib/cartopy (what is drawn is a list of calls), netCDF4/pyhdf (files are maps
  from names to variables; the binary formats are not modelled), argparse (C123), `ast`/`eval`, shapely's membership test.
* Not modelled: haversine rounding, numpy's `std` rounding, random access to memory-mapped files, multi-threading (the code has none),
  abstract base classes and their docstrings, dead code (functions with no caller).

## Layout

`lean/Verif/<Area>/Model.lean` – model of the code (with citations); `Spec.lean` – small independent specification
(where the spec is not just core/Mathlib vocabulary); `Lemmas.lean` – helper lemmas; `Props.lean` – the property theorems
(named in MANIFEST.json), each followed by an `example` that meets its hypotheses.

A property that the *code* violates is handled so: it is split into two entries of properties.jsonl. The first states it with the exact
condition under which the code fulfils it, and names in brackets the entry with the general statement; it is proved for all inputs that
meet the condition. The second (C139–C147, C149, C151, C153, C158, C159–C177, C179, C181, C183, C189, C190, C192, C194, C196, C200, C204, C207, C209, C218) is the general statement, which is false of the code: its
claim is `partial`, and its theorems named `…_violated` prove the negation with a witness or for a whole class of inputs. A theorem
`…_partial` proves a part of a general statement that is not covered by an entry of its own (C56, C59, C62, C67, C71, C78, C100, C137,
C159, C163).

## Plan per property

| id | what is modelled | how it is proved |
|----|------------------|------------------|
| C01 | `OrderedSet` as heap of nodes (prev/next/key) plus map from key to node, sentinel node | representation invariant "heap = cyclic list of the abstract list", induction over operations, refinement to a duplicate-free list |
| C02 | `expand_filelist` over an abstract file system (glob, isdir, isfile, listdir) | spec: dedup of concatenated expansions; induction |
| C03 | `index_iterator` odometer | spec: list of all index tuples, sorted lexicographically, no duplicates; position = row-major rank |
| C04 | `index_data`/`get_iterator` of slice index over any stable/unstable sort result | partition theorem for increasing coords; violation for decreasing |
| C05 | `GridCellBinIndex.index_data` | equality with brute-force membership for both directions |
| C06–C12 | `KDTree._build`, rectangles, queries, over linear ordered field and abstract metric with monotonicity | structural induction on tree; invariants on rectangles |
| C13 | `RectangleHaversine.min_distance_rectangle` and the pruning test over ℝ | negation with explicit witness, partial with the lower-bound hypothesis |
| C14 | `SepConstraint`, `SepConstraintKdtree` filters | conjunction spec, permutation equality; violation for h_sep = 0 |
| C15 | kernels over ℚ | permutation invariance, bounds |
| C16 | nn kernels as the code's loops | first argmin spec |
| C17 | ungridded collocation loop, also with the tree search of the code | pointwise spec; exactness of the search in a region from C13 |
| C18–C20 | `_find_indices`, `_evaluate_linear`, `_evaluate_nearest`, axis inversion | tensor-product induction over the rank; violation for decreasing axis bookkeeping |
| C21–C23 | longitude functions | floor/mod arithmetic over ℚ, list rotation |
| C24–C28 | date-time functions over a proleptic Gregorian calendar model | case analysis, lexicographic order, arithmetic |
| C29–C33 | parsing and validation functions over `List Char` | induction on strings |
| C34, C35 | masked arrays as lists of values with mask bits | induction on lists |
| C36–C38 | subset of ungridded data: coordinate arrays, constraint state, keyword loop | points as rows; induction; remap arithmetic; violations and partials |
| C39, C40 | aggregation grid, binning conservation | arithmetic, C04's partition |
| C41 | `_calc_new_dims` | rank function order preserving |
| C42 | `HyperPoint` methods | field arithmetic; violation for numeric time |
| C43, C44 | ungridded post-processing; lazy data state machine | filters; invariant over histories; violation for stale flattened cache |
| C45, C46 | `CoordList`, `CommonDataList` | invariant over histories; violation for `get_coord` fallback |
| C47 | `maths` over a store of objects (Maths) | broadcasting specified by stretched indices; success characterised, effect elementwise, frame; violations for integer data in place |
| C48 | `Calculator.evaluate` with `eval` as a parameter (Evaluate) | names characterised, success characterised, inputs framed; violation for shared coordinate metadata |
| C49, C50 | plugin discovery over class trees, removal while iterating, product choice (Plugin) | loop = skip-next function; stable sort order; violations for discovery |
| C51 | `__create_variable`/`write` over a file as association list | violation on clash; partial when names distinct |
| C52 | `sampled_from`, `get_kernel` (Plugin) | equivalence with the documented table |
| C53 | gridded view | C03 + per-dimension coordinate spec; violation for length-one dimensions |
| C54 | histories | prefix invariant |
| C55, C56 | histogram edges; NaN equality | arithmetic; violations and partials |
| C57 | `SepConstraintKdtree` as a state machine (index, cache) | invariant over histories; violation for a second indexing |
| C58 | `haversine` functions over ℝ | angle between unit vectors of Mathlib's inner product geometry |
| C59 | `HaversineDistanceKDTree._query` | termination and membership; exact for one leaf; for any size, points with squared degrees ≤ km are never missed (invariant over the queue of cells), hence exact in a region; violation in general |
| C60 | `_RegularGridInterpolator` with a hybrid coordinate | equality with the rectilinear interpolator for leading dimensions; violation when the first dimension is not one of the hybrid dimensions |
| C61 | the optional-argument loops over segments and options | split/join inverse with brackets; loop invariants; violation for a single optional argument |
| C62 | loop over datagroups saving to one file | induction; violation for two datagroups |
| C63 | `_find_standard_coords` and the transposition | sorted permutation; violation for non-standard coordinates |
| C64 | `get_iterator_for_data_only` with sample mask | C04 partition plus index remapping; violation for `get_iterator` |
| C65 | `CoordList.copy` | violation for coordinates without standard name |
| C66 | `_get_coord` | from C45 |
| C67 | `hyper_point` | direct; violation |
| C68 | `from_points_array`, `get_all_points` | through C43, C45, C53 |
| C69 | `set_longitude_range` of views | case analysis |
| C70 | `UngriddedCoordinates.size` | direct; violation |
| C71 | metadata of results (Maths) | equations for range, history, attributes; mostly violations |
| C72 | `GriddedUngriddedCollocator.collocate` with its cached interpolator as a state machine (Interp/Cached) | invariant over histories; violations for other grids and other points |
| C73 | `GriddedCollocator.collocate` with named dimensions, transposition; iris interpolation a parameter (GridColloc) | sorted permutation of names; index maps |
| C74 | `_make_output_mask` through flat positions (GridColloc) | ravel/unravel arithmetic; violation for scalar coordinates |
| C75 | NetCDF `get_data`, `apply_offset_and_scaling`, `hdf_sd.get_data`, CALIOP `get_calipso_data` on stored arrays with optional attributes (Read/Decode) | pointwise spec `invalid`/`decoded`; induction over the array; violations by evaluation |
| C76 | group trees, listing, descent along '/'-split names, coordinate exclusion (Read/Groups) | mutual induction on trees; split/join inverse; violations by evaluation |
| C77 | `netcdf.read`/`read_many_files_individually`, `hdf.read`/`_read_hdf4`/`read_data`, `hdf_sd.read`, `hdf_vd.read`, `utils.concatenate` over abstract files (Read/Many) | dictionary lemmas, induction over files; violations by evaluation |
| C78 | MODIS L2 slices: store of mutable handles, lazy entries, `append` reading data (Read/Modis) | induction over the index list with the store; the violation is proved for all sizes |
| C79 | `read_data_list`, `_expand_wildcards`, `read_data` over an abstract reader; POSIX `fnmatch` with classes (Read/Reader) | pattern matching against an inductive spec; induction over the names; violations by evaluation |
| C80 | AERONET header parsing, numbering, cleaning, renaming (Read/Aeronet) | position-wise characterisation of the loop, injectivity of decimal numbering; violations by evaluation |
| C81 | `get_subset_limits` with its regular expression written as a scanner, numbers as rationals with infinities and NaN (Parse/Limits.lean, LimitsProps.lean) | the scanner accepts exactly the rendered segments (iff lemma); case analysis of the checks; induction over the segments |
| C82 | `get_aggregate_grid` with its regular expression (Parse/Limits.lean) | scanner of rendered segments; counterexamples for malformed segments |
| C83 | `GriddedSubsetConstraint.constrain` on cubes with one coordinate per dimension (Subset/Gridded.lean) | invariant: after each cut the cube is the part of the input within the limits used so far; induction over the limits; counterexamples for shapes |
| C84 | the two regular expressions as scanners, `replace`, and the unit conversion (Parse/Distance.lean) | the scanner consumes exactly the rendered numeral (induction over the grammar), then case analysis of the units |
| C85 | `extract_method_and_args` on top of the model of `multi_split` (Parse/Method.lean) | the splitting theorem of C31 applied to the rendered text, induction over the arguments |
| C86 | Taylor statistics over the reals with masks (Plot/Taylor.lean); numpy.ma.corrcoef as library behaviour | sums over lists, Cauchy-Schwarz, law of cosines; counterexamples computed |
| C87 | expand_1d_to_2d_array, CloudSat and CALIOP coordinate lists over many files (Read/Profile.lean) | zips of equal blocks by induction; counterexamples computed |
| C88 | plot_cmd, Plotter, multilayer_plot, taylor_plot as functions from option dictionaries to the list of drawing calls (Plot/Layers.lean) | induction over the loop with its loop variables; counterexamples by computation |
| C89 | get_axis over the coordinate lookup of C45 (Plot/Axes.lean) | case analysis using the lookup theorems of C45; counterexamples by computation |
| C90 | _cube_manipulation and the cells of pcolormesh (Plot/Mesh.lean); add_cyclic_point, meshgrid, pcolormesh as library behaviour | set inclusion by index arithmetic; counterexamples computed |
| C91 | apply_axis_limits, get_x_wrap_start, set_width_and_height, resolutions, contour levels, labels (Plot/Format.lean), exact numbers | ceiling arithmetic; list minimum |
| C92 | NCAR_NetCDF_RAF.py: attribute dictionary, selector, coordinates of many files, auxiliary coordinate (Read/Raf.lean); float() and time conversion parameters | iff between the selector and the documented rules; blocks per file by induction; counterexamples computed |
| C93 | EarthCARE names, slices and coordinates; arrays as shape and function of the list of indices (Read/EarthCare.lean) | infix search proved equal to the infix relation; slices by list insertion; case analysis of the known dimensions; counterexamples by computation |
| C94 | `convert_time_string_to_number` with a backtracking model of strptime, the callback of the gridded product, the coordinates of the ungridded ones (Read/Cci.lean) | the first alternative of each directive matches a rendered date; calendar lemmas of C24; concatenation by induction over the files |
| C95 | choice of the cube by name, listing of variables, attaching of pressure and height fields, conversion of the time coordinate (Read/Gridded.lean); iris.load and its contracts are parameters | case analysis over the list of matching cubes; index lemma over dimensions with different names; counterexamples with equal sizes |
| C96 | writing with packing, missing values and names, and reading by the product cis, including removal of points with missing coordinates (Write/RoundTrip.lean); netCDF4's packing and masking as stated contracts | decoding theorem of C75 for what was written; induction over coordinates, variables and files; evaluated counterexamples |
| C97 | Verif/Main/Commands.lean models the commands of cis_main.py as functions from the disk to an outcome and a disk; reading, the operations and saving are parameters that may raise. | Case analysis on the outcome of each step; the disk is a function from paths to contents, so `only the output changes` is a statement about all other paths. |
| C98 | Verif/Write/Crash.lean models every state of the file during a save, one step per call of the netCDF4 library; an interrupted save leaves one of them. | The last state is shown to be that of the save of C96 (refinement); induction over the loops gives the shape of every state; reading an unfinished file is reduced to C96 for a prefix of the data. |
| C99 | Verif/Plot/Histogram.lean: unpacking and masking in the plot classes, numpy.histogram and histogramdd as their algorithms over the rationals. | The bin found by multiplication and floor, and the one found by searchsorted, are both shown to be the only bin whose edges enclose the value; counts follow. |
| C100 | Verif/Read/ModisInterp.lean: both loops of the interpolation with Python slices, on arrays of any size with NaN. | Slices are computed in closed form; the five passes of a loop are unrolled, showing each row to be a combination of its two centre rows; the second loop is the first on the transposed array. |
| C101 | `load_aeronet`, `load_multiple_aeronet`, `Aeronet.create_data_object` on files as pandas parses them (contract), with the dictionaries of columns as partial functions. | Induction over the files; the specification lists the measurements with their files and positions. |
| C102 | `_collapse_gridded`, `GriddedCollapsor.__call__` and `_gridded_full_collapse`, the kernels and the dictionary of kernels, list collapse; Iris `Cube.collapsed` and `area_weights` by contract. | The groups of the model (equal remaining index) are shown to be the cells that differ in collapsed dimensions only; sums over lists of indices; a double count for the total. |
| C103 | `Metadata` (standard names, guess, units, equality, hash, summary), `LazyData.name`, `update_range`, `UngriddedData.summary`; STD_NAMES and the unit parser by contract. | Case analysis on prefixes of lists of characters; induction for `str.replace`. |
| C104 | The conversions of ungridded data, coordinates and lists to data frames over a contract of pandas (columns by key, equal lengths). | Induction over the coordinates and over the variables with the invariant that the frame has n rows. |
| C105 | `_parse_datetime` character by character (find, slices with negative numbers, the regular expression per line), start and end, the loop over files; the merge of iris and the parser of dates as contracts (`Verif/Read/ModisL3.lean`). | Induction over the text for `find` and for the lines; specification by decomposition of the text. Counter-examples: no date (today is taken), an attribute that is a number, two values on a line, no END_OBJECT. |
| C106 | `_aggregate_ungridded` with its forms of grids, the dictionary of grids, the new coordinates and their final bounds, the range of longitudes, on top of the binning of C40 (`Verif/Agg/Request.lean`); `_get_coord` and the sort are parameters. | Induction over keywords (what the dictionary has) and coordinates; cells modulo 360 by uniqueness of the representative in the range; the binning theorem of C40. Counter-examples: longitude grids across the conventions, the greatest point with default limits, single values, unknown names, repeated keywords. |
| C107 | Read/Listing.lean: the listing functions of AProduct, MODIS, CALIOP and CloudSat, and the shapes of what create_data_object reads (on top of hdfRead of C77). | membership characterisations; induction over the files for the shapes of concatenated arrays; counterexamples by evaluation in the kernel. |
| C108 | Lon/Sharing.lean: coordinate objects by address, set_longitude_range on one variable and on lists, collocation of lists, outputs that share coordinates | induction over the list with the rotation theorem C23; counterexamples for every shared coordinate that has to be rotated |
| C109 | Meta/Files.lean: list objects by address, the list of the class, reading, assigning, adding; texts of histories | refinement to a map of names per object by induction over the history; exact effect of adding; counterexamples |
| C110 | Time/Convert.lean: values with units, the conversions of Coord, change_year_of_ungridded_data (C28) | case analysis of the units; invariance of the denoted instants over histories of conversions; counterexamples |
| C111 | Levels, attribute dictionary, dimensions, number of variables of a comparison with what is then read, kernel names (Parse/Args.lean). | Equivalence of accepted texts with written lists via the splitting lemmas of Str; dictionary lookup by induction; finite lists of names by cases. |
| C113 | Ungridded objects that refer to longitude objects by address, histories of collocations; bounds of a gridded sample; metadata shared by the dummy collocator (Colloc/Inputs.lean). | Invariant over histories (congruence modulo 360), idempotence of the preparation in all aliasing cases, counterexamples. |
| C112 | Lists of references to cubes; in-place loop, loop making new cubes, extract with None (DataList/Ops.lean). | Induction over the list; exact characterisation by Forall2. |
| C114 | get_data, get_file_format, exception wrappers, printing of main, loop of info (Read/Errors.lean) | Product methods are parameters giving a result or an exception (class, args, text); equivalences by cases, induction over variables for info. |
| C115 | ASCII_Hyperpoints with genfromtxt (comments, fields, loose conversion, squeeze), concatenation, removal of points (Read/Ascii.lean) | Relation between lines and written points as specification; induction over lines and files. |
| C116 | __setitem__ of both views; the array behind data_flattened (Hyper/Assign.lean) | Refinement of histories of assignments to List.set on the list of points of C53; two-array model (array, cached copy) for aliasing. |
| C117 | heap of arrays and metadata objects; copy, indexing, results with the same coordinates, writes, metadata changes, attributes | refinement to objects as values, by an ownership invariant over all histories; violations for results |
| C118 | callbacks of the products, merge and concatenation of cubes by time, PP names, constructor of gridded data | permutation and sortedness of the sorted concatenation; success from non-overlap; violations by general theorems |
| C119 | valid pairs of two masked arrays, sums of deviations, ranks with ties | algebra of sums by induction over lists (decomposition of the squared distances of any line), order arguments for ranks |
| C120 | relative differences of masked arrays | filter of the valid pairs; strict inequality of lengths for the violation |
| C121 | Plot/TimeAxis.lean: conversion of times per plot class, `num2date`/`date2num` over a calendar built by counting days, labels as strings, limits, steps | counting days gives every date at its number (induction over dates); labels by injectivity of padded numerals; round trip through C25; counterexamples |
| C122 | Plot/MapLimits.lean: abscissae of a map with a central longitude, get_extent/set_extent, set_ticks, pruning, no_autoscale | arithmetic modulo 360 with floors; exact limits after a step; counterexamples for all data on one side |
| C123 | The names of the commands, the flags before and after the command as two lists, the namespaces of argparse, the level of the screen handler (Main/Options.lean). | Induction on the flags with a general namespace; case analysis of the level; composed with the output validation of C33. |
| C124 | The whole of the datagroup parser with the option lists and checks of each command (Parse/Datagroups.lean), on top of C29, C31, C61. | Round trip of fields and options composed from the lemmas of C29, C30 and C61; induction on the positional arguments. |
| C125 | Read/Hdf4.lean: the HDF library as a state with open handles in which any call may fail at the will of a schedule; try/finally; HDF_SDS with its two attributes; histories over any number of objects; vdata functions; metadata of attributes | invariants over all histories and all fault schedules; case analysis of the calls of one method; counterexamples for lost errors, unclosed files and shapes |
| C126 | second half of Taylor.__init__ and the loop of __call__ (Plot/TaylorDraw.lean) | case analysis; monotonicity over the reals |
| C127 | attributes of a variable as ordered dictionaries: `__add_metadata`, `__get_missing_value`, `get_metadata`, `find_missing_value`, `add_attributes`, `remove_attribute` (Write/Attrs.lean); refusals of netCDF4 and the unit parser as parameters | folds over dictionaries with a lookup lemma each; invariant (steady files) over cycles by induction; counterexamples for all files with the stated attributes |
| C128 | `add_attributes`, `remove_attribute`, `save_data` of gridded data and lists (Write/GriddedAttrs.lean); what Iris writes and loads as a contract | induction over operations, dictionaries and lists of cubes with the lookup lemmas of C127 |
| C129 | Sequences of `subset` calls on the model of Subset/Model.lean (Subset/Steps.lean). | Induction over the requests with the exact characterisation of one request (C36); equality of results through the list of points; counterexamples at 180 degrees and for mixed conventions. |
| C130 | Pairs of collocations on the model of Colloc/Model.lean (Colloc/Local.lean). | From the exact values of C17 and the order independence of the kernels (C15, C16); monotonicity from inclusion of the selected data; counterexamples by computing the tree search. |
| C131 | Agg/Compose.lean on top of Agg/Model.lean: kernels that are invariant under permutation and that decompose over concatenation, selections of points, coarser grids | the cells theorem of C52/C10 gives each cell as the kernel of its points; permutation of the points of a coarse cell with the concatenation of those of its block of fine cells |
| C132 | `fix_longitude_range` with every operation rounded (Fp/Lon.lean); rounding in Fp/Round.lean: numbers m 2^e with |m| <= 2^53, any map to a nearest one; `double` is IEEE 754's | multiples of 2^-43 / 2^-42 above 720; exactness of the remainder; monotony of rounding; counterexamples by the rounding of one number |
| C133 | `numpy.arange`, half steps, guess_bounds and the lookup of cells with every operation rounded (Fp/Grid.lean) | error bounds propagated through each operation; strict increase from the bounds; counterexample for every rounding to nearest |
| C134 | altitude and pressure separations and nn_altitude with rounded operations (Fp/Kernel.lean) | monotony of rounding and exactness on numbers of double precision; relative error of one rounding |
| C135 | a sum is any binary tree of rounded additions over any permutation of the values, followed by a rounded division (Fp/Kernel.lean) | induction over the tree: error <= ((1+2^-53)^n - 1) sum |x|; Bernoulli-type bound for n < 2^50 |
| C136 | `convert_sec_since_to_std_time` with both operations rounded (Fp/Time.lean) | absolute error of two roundings; monotony; counterexample with IEEE 754's ties to even |
| C137 | state machine of an object of ungridded data: values, units and recorded ranges; operations in place, summary (Meta/Ranges.lean) | invariant over histories: the recorded range of the data is that of creation; minima and maxima specified by membership and order |
| C138 | `_find_indices`, `_evaluate_linear`, `_evaluate_nearest` with every arithmetic operation rounded (Fp/Interp.lean) | error analysis: weights by induction on the dimensions, sum by induction on the corners, exact value from the model of C18; nodes exactly by weights 0 and 1 |
| C139 | the model of C03 | negation with explicit witnesses; what holds is proved under C03 |
| C140 | the model of C36 | negation with explicit witnesses; what holds is proved under C36 |
| C141 | the model of C76 | negation with explicit witnesses; what holds is proved under C76 |
| C142 | the model of C81 | negation with explicit witnesses; what holds is proved under C81 |
| C143 | the model of C82 | negation with explicit witnesses; what holds is proved under C82 |
| C144 | the model of C84 | negation with explicit witnesses; what holds is proved under C84 |
| C145 | the model of C97 | negation with explicit witnesses; what holds is proved under C97 |
| C146 | the model of C98 | negation with explicit witnesses; what holds is proved under C98 |
| C147 | the model of C128 | negation with explicit witnesses; what holds is proved under C128 |
| C148 | Collapse/Steps.lean: the model of C102 and its result as gridded data that is collapsed again | the cells collapsed at once are a permutation of those collapsed in two steps (induction over the cells); every cell of a result has as many cells collapsed into it (induction over the shape); algebra of weighted sums |
| C149 | Collapse/Steps.lean | negation with explicit witnesses; what holds is proved under C148 |
| C150 | Interp/Local.lean: the model of C18-C20 on two grids of which one is a part of the other | in each dimension the cells are the same, or the point is a node of both and they give the same combination; multilinear forms that agree in each dimension agree (induction over the dimensions); nearest nodes are unique |
| C151 | Interp/Local.lean | negation with an explicit witness; what holds is proved under C150 |
| C152 | `collocate` with sample = data (Colloc/Model.lean) | the tree search always finds a point from its own place (`c13_same_place`: boxes that both hold it are never pruned), the longitudes of sample and data coincide after normalisation, unique nearest among any selection that has the point |
| C153 | as C152 | C17 in the region where the search is exact; counterexample at the poles |
| C154 | Gridded subsets in steps: the model of GriddedSubsetConstraint (Subset/Gridded.lean), applied twice | Subset/GridSteps.lean: constraints on different axes commute; selections on one axis compose (intersection of intervals; wrapped longitudes of a renumbered axis). |
| C155 | Evaluation point by point: expressions as trees, numpy broadcasting, Calculator.evaluate and UngriddedSubsetConstraint.constrain on lists | Evaluate/Commute.lean: induction over expressions; selection by a mask commutes with map and zip; the mask depends on the coordinates only. |
| C156 | Cells of aggregates and subsets by their limits: the models of aggregation (Agg/Model.lean) and of subsetting (Subset/Model.lean) on the same data | Agg/CellSubset.lean: both select the same points (C40, C36), by induction over the coordinates. |
| C157 | Subset, save and read: Subset/Model.lean, Write/RoundTrip.lean | Write/SubsetFile.lean: the mask marks the points within the limits; selections stay within the conditions of the round trip (C96). |
| C158 | Converted longitudes in saved subsets | Write/SubsetFile.lean: counterexample with valid_min. |
| C159 | the models of C04, C18, C19, C40 | negations with explicit witnesses or for whole classes of inputs; what holds is proved under the properties named |
| C160 | the models of C04, C05, C17, C18, C38, C40, C45, C66, C68, C70, C103, C106, C115, C131 | negations with explicit witnesses or for whole classes of inputs; what holds is proved under the properties named |
| C161 | the models of C14, C55, C106, C120, C131 | negations with explicit witnesses or for whole classes of inputs; what holds is proved under the properties named |
| C162 | the models of C23, C37, C40, C69, C106, C129 | negations with explicit witnesses or for whole classes of inputs; what holds is proved under the properties named |
| C163 | the models of C13, C17, C130 | negations with explicit witnesses or for whole classes of inputs; what holds is proved under the properties named |
| C164 | the models of C16, C41, C53, C60, C64, C74, C83, C95 | negations with explicit witnesses or for whole classes of inputs; what holds is proved under the properties named |
| C165 | the models of C24, C27, C94, C105, C110, C115 | negations with explicit witnesses or for whole classes of inputs; what holds is proved under the properties named |
| C166 | the models of C29, C30, C31, C61, C85, C111, C123, C124 | negations with explicit witnesses or for whole classes of inputs; what holds is proved under the properties named |
| C167 | the models of C18, C43, C75, C83, C96, C104, C115, C116 | negations with explicit witnesses or for whole classes of inputs; what holds is proved under the properties named |
| C168 | the models of C38, C43, C44, C46, C48, C57, C72, C108, C109, C113, C116, C117 | negations with explicit witnesses or for whole classes of inputs; what holds is proved under the properties named |
| C169 | the models of C45, C51, C63, C65, C79, C80, C96, C103, C104, C106 | negations with explicit witnesses or for whole classes of inputs; what holds is proved under the properties named |
| C170 | the models of C47, C102 | negations with explicit witnesses or for whole classes of inputs; what holds is proved under the properties named |
| C171 | the models of C44, C46, C112, C114, C116, C125 | negations with explicit witnesses or for whole classes of inputs; what holds is proved under the properties named |
| C172 | the models of C75, C96, C127 | negations with explicit witnesses or for whole classes of inputs; what holds is proved under the properties named |
| C173 | the models of C77, C87, C92, C93, C101, C107, C118 | negations with explicit witnesses or for whole classes of inputs; what holds is proved under the properties named |
| C174 | the models of C86, C88, C89, C90, C91, C99, C121, C122, C126 | negations with explicit witnesses or for whole classes of inputs; what holds is proved under the properties named |
| C175 | the models of C50 | negations with explicit witnesses or for whole classes of inputs; what holds is proved under the properties named |
| C176 | the models of C42 | negations with explicit witnesses or for whole classes of inputs; what holds is proved under the properties named |
| C177 | the models of C132, C133, C134, C136 | negations with explicit witnesses or for whole classes of inputs; what holds is proved under the properties named |
| C178 | Options of a collocation from the command line to the collocator, constraint and kernel; names of the results | Colloc/Options.lean: composition with the parser of methods, distances (C84) and durations; lookup in lists of options. |
| C179 | Documented options without effect | Colloc/Options.lean: counterexamples, each for all values. |
| C180 | `cis subset` from the text of the limits to the points kept | Main/SubsetCommand.lean composes Parse/Limits, Coords, Time, Subset; induction over the limits. Time/Order.lean: the order of dates is that of the instants. |
| C181 | Documented meaning of limits that the code does not give | Main/SubsetCommand.lean: counterexamples, partly for all values. |
| C182 | `get_aggregate_grid`, `_get_coord`, `_aggregate_ungridded` and the aggregator composed (Main/AggregateCommand.lean) | composition of C82, C66, C26, C106 and the model of whole dates of C180 |
| C183 | the same model | counterexamples, for all data where possible |
| C184 | cis col end to end for points onto points: Verif/Colloc/Command.lean runs the plan of the options (Colloc/Options.lean) with the collocator (Colloc/Model.lean) for a list of variables. | Induction over the variables, from c178_box and the exactness of the search. |
| C185 | stats_cmd and all results of stats.py (texts, names, values): Verif/Stats/Command.lean, on the models of Masks and Stats/Regress. | From C35 and C119; permutation invariance of sums; a line with zero residual is the least. |
| C186 | evaluate_cmd with the parsing of aliases, attributes and output, reading of datagroups and Calculator.evaluate: Verif/Evaluate/Command.lean. | Composition of C32, C111, C33, C79 and C155; the aliases are distinct, so the last variable of a name is the first. |
| C187 | collapse_cmd with the parsing of dimensions, kernel and output, _get_coord on gridded data and the collapse of lists: Verif/Collapse/Command.lean. | Composition of C111, C33 and C102; the kernels against a table of statistics of its own. |
| C188 | Main/SubsetGridded.lean: the limits text (Parse/Limits), _get_coord on gridded data, the filled ends, the split by modulus, GriddedDataList.extract and intersection, subset_cmd | Invariant over the list of limits: the variable is the old one re-indexed in each dimension by what the limits so far select (Part); induction for extract and for intersection; AxisSel for each kind of limit |
| C189 | as C188 | proved counterexamples, the one for dates for every coordinate and date |
| C190 | Evaluate/Model.lean (names given to eval) | by cases on the list, from C48 |
| C191 | `cis col` of gridded data onto points, from text to values | Interp/Command.lean: plan of C178, then collocateVars of C72 with the mask of the sample as numpy has it; values by lin_main, c19_nearest, c20. |
| C192 | Samples without missing values | Interp/Command.lean: proved for plain arrays and full masks; counterexamples for nomask and for coordinates. |
| C193 | Agg/BinCommand.lean: the options (C178), make_coord_map, guessed bounds (latitudes cut at the poles), the longitudes of the data, binning into slices (C04, C64), statistics, and the final transposition, for a list of variables. | The guessed bounds are the specified cells, upwards and without gaps; the map is a permutation of the shared coordinates, so that cells before and after the transposition correspond; slices hold exactly the points of the cells. |
| C194 | Agg/BinCommand.lean, as C193. | Violations: the last guessed cell ends half a column before 360 degrees and the longitudes of data are moved into [0, 360); guess_bounds fails for one point; the number of coordinates is compared, not of dimensions. |
| C195 | GridColloc/Command.lean: the options (C178), `_fix_longitude_range`, `set_longitude_range` on cubes (C23), GriddedCollocator for a list of variables (C73, C74). | The rotation of the longitudes is a permutation of the columns within one turn; the dimensions and targets of C73 are unchanged by it; the mask of the sample is unravelled; nodes are found by uniqueness of the angle in the range of the sample. |
| C196 | GridColloc/Command.lean, as C195. | Violations: the transposition of the first variable has the wrong length for others; `dim_coords.index` fails for a scalar longitude; the range of the sample is half open; the range is not changed if the data do not reach into it; the order of dimensions is that of the first variable. |
| C197 | `AggCmd.run`, `AggApi.aggregateApi`, `BinCmd.run`, `StatsCmd.run` (C182, C106, C193, C185); no new model | the slices of the index characterised for every grid with as many bounds as points (no monotonicity needed), so that a cell is the kernel on the points with its index column; minima and maxima, lookups and columns are invariant; files joined in another order are a rearrangement (induction over the permutation) |
| C198 | `cis subset` (C180) on data made of the points of several files (C77), and run twice. | The subset is characterised by C180; in one convention the conversion is the identity, so the points kept are a filter by a condition on the single point, and filters commute with joining and compose. |
| C199 | `cis info` from the text of the datagroup to the lines printed. | Composition of C124, C49, C107 and C114; the order in which a set is printed is a parameter, of which only that each element comes once is used. |
| C200 | The default of `--type`. | The negation, for all HDF4 files: the default prints what SD prints, and All fails. |
| C201 | `Colloc/Wider.lean`, on the models of `Colloc/Model.lean` and `HavTree/Model.lean`. | Induction over the pairs of nodes: a pair that is pruned, taken whole or compared for the larger distance is pruned or compared for the smaller one, so what is added is a sublist; then through the constraint and the collocator. |
| C202 | `Colloc/Units.lean`, `Agg/Units.lean`, `Collapse/Units.lean`, `Interp/Units.lean`, on the existing models of these operations. | Each step of an operation commutes with a map of the values that keeps positions; each kernel commutes with an affine map; the weights of an interpolation add up to one. |
| C203 | The keyword passing of Plotter, basic_plot and the constructors and __call__ of nine plot classes as the list of calls made on the axes; matplotlib is an arbitrary predicate that accepts or refuses the keywords of a call. | Case analysis over the classes; induction over layers; specification: a table of (type, option, function, keyword). |
| C204 | As C203. | General theorems: the calls are equal with and without the option. |
| C205 | the existing models of collocation, aggregation, bin, interpolation and subsetting, run twice on related inputs | equivariance of each definition in turn: tests and comparisons are invariant under increasing affine maps, so the selected positions, cells and weights are equal (`Colloc/Origin.lean`, `Agg/Origin.lean`, `Interp/Origin.lean`, `Subset/Origin.lean`) |
| C206 | The branches on the form of each keyword argument (subset.py:50-59), the order of coordinate lookup and argument check, and the shared rest of the call (Main/SubsetCommand `call`). | Each documented form denotes a range (the period by C24); the lemma behind C180 for the call is reused; induction over the arguments before the bad one for the refusals. |
| C207 | As C206. | Counterexamples on the model, and general statements from C206: nothing after the second date is kept; every call with a date and None ends in an error. |
| C208 | `cis` commands as machines with one step per access to the disk (check of the output, each input, creation of the output, each coordinate, each variable), on a shared disk, with arbitrary interleaving; the writing steps are those of the model of C96. | Induction on the schedule, with the invariant that every command is in the state that it has after as many steps alone (`c208_interleaving`); then liveness given enough turns. |
| C209 | Same model. | Schedules are constructed for all commands that meet the hypotheses: consent, mixed output, unfinished inputs. |
| C210 | The machine of C208; a script is a sequence of commands each of which can do its work on the disk the earlier ones leave. | Induction on the schedule with the invariant that every command is where it would be alone on the disk the script had before it; progress by the least command not done; termination by the number of commands not done. |
| C211 | What is in memory after a file of CIS has been read, with all attributes that matter when it is saved again, on top of the models of C96, C157 and C210. | The saved file determined exactly; reading it determined with the round trip of C96; induction on the steps for files, and the script theorem of C210 for commands on a disk. |
| C212 | Evaluation of what was read as a step of C211, on top of the models of C48 and C155. | The calculated values determined by the pointwise theorem of C155; they can be saved by C96; subsetting selects indices, so both orders give the same selection. |
| C213 | `Write/ColFile.lean`: the longitudes of sample and data set to one range, data frames made from the coordinates, the collocation of C184, results with names, fill value and history, saved and read as in C96 | the moved longitudes are determined by C21; C184 for values; saved results are sound, then C96 for each |
| C214 | `Write/ColGridFile.lean`: the points made from the coordinates of the sample with longitudes in one range, the collocation of C191, results with names, fill value and history, saved and read as in C96 | C191 for names and values; the results can be saved as the coordinates of the sample can (C213), then C96 for each |
| C215 | the models of `cis subset` (Write/SubsetFile.lean) and `cis col` (Write/ColFile.lean), nothing new | the subset is a selection of rows; the kernel at a point sees only the rows within the separations, in order (a), and each sample point only its own row (b, from C130) |
| C216 | the models of `cis subset` (Main/SubsetCommand.lean, Main/SubsetFiles.lean) and `cis aggregate` (Main/AggregateCommand.lean), nothing new | the subset is a list of rows (C198); C182 for the rows before and after; points that are left out are in no cell or have no value |
| C217 | The two functions with their defaults for each class of object, on top of the model of the options (C178) and of the collocator (C184). | The flag has no effect on a sample without values (the iterator, by unfolding), so the plans that differ in it give the same; the command's options with the flag taken out are the arguments of the function. |
| C218 | As C217. | Two points against one: the results have different lengths. |
| C219 | As C214 and C215: gridStep and subsetObjs. | The interpolator maps over its points (induction over the variables with the cached interpolator as state), so it commutes with a selection of points; so do the longitude range and the mask. |
| C220 | Main/SubsetColGrid.lean: the subset of Main/SubsetGridded.lean (C188) followed by the collocation of Interp/Command.lean (C191) | what C188 leaves of each coordinate is a part of its axis in the sense of C150 (also of axes that go round); interpolation looks at cells in range only; then the values of C150 point by point |
| C221 | Main/SubsetCollapse.lean: the subset of Main/SubsetGridded.lean (C188) followed by the collapse of Collapse/Command.lean (C187) | the old indices of the cells of the part are, one to one, those of the cells in the ranges (C188); so the cells that the collapse of the part takes together are those of all the data in the ranges |
| C222 | Main/SubsetStats.lean: the subset of Main/SubsetFiles.lean (C198), for two variables on the same points, followed by the statistics of Stats/Command.lean (C185) | the subset of each variable is a filter of the same rows, so the valid pairs are those of the rows within; C185 for the values; its law that only the valid pairs count for the comparison with all the points |
| C223 | Main/SubsetGridStats.lean: the subset of Main/SubsetGridded.lean (C188) of two variables followed by the statistics of Stats/Command.lean (C185) | by induction over the limits the subset does to every variable on the grid the same (it never looks at values); applied to a variable whose values are the indices themselves, C188 gives the common cells; then the valid pairs are a permutation of those of the cells in the ranges, and C185 with its law that order does not matter |
| C224 | move_item_to_end, the transposition of the data and of the hybrid coordinate, and the choice of the grid by GriddedUngriddedInterpolator (Interp/Vertical.lean), on top of the interpolation of Interp/Model.lean. | The order of the dimensions after the move is computed for every position, and its inverse; transposed arrays are then those of the data with the vertical last. With C60 this gives the interpolation on a rectilinear grid. |
| C225 | get_metadata_EC and the metadata of parts (Write/AttrsEarthCare.lean) with the writing of Write/Attrs.lean. | The attributes in the new file by C127, with what EarthCARE reads: a table over all attribute names equal to the specification. |
| C226 | As C225, with add_history. | Violations proved for all files. |
| C227 | HadGEM_CONVSH._create_cube and get_variable_names for one file (Read/HadGem.lean), with the reading of gridded files of Read/Gridded.lean. | Case analysis on the times and the hybrid height; what is added from other fields leaves data, names, dimensions and time as they are. |
| C228 | As C227. | Violations proved for all such files. |
