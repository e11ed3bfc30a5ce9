{"id": "C01", "title": "OrderedSet behaves as an insertion-ordered set under any history", "statement": "After any sequence of add/discard/pop operations, iterating the ordered set yields each present element exactly once in order of first insertion since it was last removed; reversed iteration yields exactly the reverse; len and 'in' agree with iteration; pop returns the last (or first) element and KeyError iff empty.", "quantifier": "all finite sequences of add/discard/pop(last)/pop(first) starting from the empty set, all element values", "why_tests_cant": "The structure is a hand-written cyclic doubly linked list with aliasing; only an invariant over every history shows that links never go stale.", "anchors": ["cis/utils.py: OrderedSet"]}
{"id": "C02", "title": "File list expansion yields each file once, sorted within each element, or an error", "statement": "expand_filelist(list or comma separated string) returns the concatenation, in element order, of the expansions of the elements (sorted glob matches, sorted regular files of a directory, or the file itself), keeping the first occurrence only; it raises ValueError exactly when some element is neither a wildcard pattern, a directory nor an existing file.", "quantifier": "all input lists/strings, all file-system contents and glob results", "why_tests_cant": "Overlap between patterns, directories and explicit names is unbounded; tests only sample a handful of layouts.", "anchors": ["cis/data_io/data_reader.py: expand_filelist", "cis/utils.py: OrderedSet, listify"]}
{"id": "C03", "title": "Grid index iteration visits every index exactly once in C order", "statement": "index_iterator(shape) yields every index tuple within shape exactly once, in row-major (lexicographic) order, and nothing else: the n-th tuple is the one at position n of the array.", "quantifier": "all shapes of any rank with any non-negative dimension lengths, all masks", "why_tests_cant": "Every downstream gridded loop relies on it for all ranks; tests use one or two shapes.", "anchors": ["cis/utils.py: index_iterator, index_iterator_nditer, index_iterator_for_non_masked_data"]}
{"id": "C04", "title": "Slice index of data by grid cell is a correct partition", "statement": "When ungridded data with at least one point are binned onto a grid with contiguous cells of increasing coordinates, every non-masked point lying in a cell (lower bound inclusive, upper exclusive) is delivered in exactly one slice, that slice carries the grid index of the cell containing the point, every slice is non-empty, no two slices carry the same index, and masked or outside points are in no slice. (Decreasing coordinates: C159; no points: C160.)", "quantifier": "all non-empty data sets, all numbers of grid dimensions, all contiguous increasing cell bounds, all tie-breaking orders of the sort", "why_tests_cant": "Off-by-one and boundary errors depend on the coordinate direction and on point positions; tests cover few grids.", "anchors": ["cis/collocation/data_index.py: GridCellBinIndexInSlices.index_data, get_iterator"]}
{"id": "C05", "title": "Cell index equals brute-force cell membership", "statement": "For each cell of a grid with more than one cell the indices returned by the bin index are exactly those of the data points that lie within the bounds of the cell in every indexed dimension, i.e. the same points as the unindexed cell constraint selects, in the same order. (Grids of one cell: C160.)", "quantifier": "all data sets, all grids with more than one cell, monotonic non-overlapping cells in either direction, all cells", "why_tests_cant": "Equivalence of an optimised and a naive implementation over all inputs.", "anchors": ["cis/collocation/data_index.py: GridCellBinIndex", "cis/collocation/col_implementations.py: CubeCellConstraint, BinningCubeCellConstraint"]}
{"id": "C06", "title": "k-d tree construction terminates and partitions the points", "statement": "Building a k-d tree never raises and always terminates; every data point occurs in exactly one leaf; all points of a subtree lie in the hyperrectangle obtained by following the splits from the root; the number of children recorded in each node is the number of points below it.", "quantifier": "all finite point sets (including duplicates and degenerate ones), all dimensions, all leaf sizes >= 1", "why_tests_cant": "Sliding-midpoint splits have degenerate branches (all points on one side); termination and the invariant need induction.", "anchors": ["cis/collocation/kdtree.py: KDTree.__init__, _build, innernode, leafnode"]}
{"id": "C07", "title": "k-d tree ball query equals exhaustive search", "statement": "query_ball_point(x, r) returns exactly the indices of the data points whose distance to x is at most r, each once.", "quantifier": "all point sets, query points, radii and Minkowski exponents p (1, 2, infinity, other), leaf sizes", "why_tests_cant": "Pruning correctness has to hold for every tree shape; tests sample random points.", "anchors": ["cis/collocation/kdtree.py: KDTree._query_ball_point, Rectangle.min_distance_point, max_distance_point"]}
{"id": "C08", "title": "Tree-tree ball query equals exhaustive search", "statement": "t1.query_ball_tree(t2, r) returns, for each point i of t1, exactly the points of t2 within distance r of it, each once.", "quantifier": "all pairs of point sets and radii", "why_tests_cant": "Dual-tree pruning correctness for every pair of tree shapes.", "anchors": ["cis/collocation/kdtree.py: KDTree.query_ball_tree, Rectangle.min_distance_rectangle, max_distance_rectangle"]}
{"id": "C09", "title": "Pair query returns each close pair exactly once", "statement": "query_pairs(r) is exactly the set of pairs (i, j), i < j, of points at distance at most r.", "quantifier": "all point sets and radii", "why_tests_cant": "Symmetric traversal with self-pairs; errors show only for particular tree shapes.", "anchors": ["cis/collocation/kdtree.py: KDTree.query_pairs"]}
{"id": "C10", "title": "Neighbour counts equal exhaustive counts", "statement": "t1.count_neighbors(t2, r) equals the number of pairs (i, j) whose distance is at most r, for each radius of a list of radii.", "quantifier": "all pairs of point sets, all lists of radii in any order", "why_tests_cant": "Range narrowing over a sorted list of radii during traversal; must hold for all radii lists.", "anchors": ["cis/collocation/kdtree.py: KDTree.count_neighbors"]}
{"id": "C11", "title": "k nearest neighbours query is exact", "statement": "query(x, k, distance_upper_bound) returns the k smallest distances (fewer if fewer points lie strictly within the bound), in ascending order, each attained by the returned index.", "quantifier": "all point sets, query points, k, upper bounds", "why_tests_cant": "Best-first search with priority queue and pruning bound; ties and bounds vary with data.", "anchors": ["cis/collocation/kdtree.py: KDTree._query, query"]}
{"id": "C12", "title": "Sparse distance matrix equals thresholded distance table", "statement": "sparse_distance_matrix(t1, t2, d) holds exactly the distances at most d, and distance_matrix is the full table regardless of the threshold used to select the algorithm.", "quantifier": "all point sets and thresholds", "why_tests_cant": "Pruned computation versus definition, for all trees.", "anchors": ["cis/collocation/kdtree.py: KDTree.sparse_distance_matrix, distance_matrix"]}
{"id": "C13", "title": "Horizontal separation search finds every sample pair within the great-circle distance", "statement": "The tree-based search of all data points within r km (great-circle) of a point returns exactly the data points for which the haversine distance is at most r, each once, wherever the points are off the poles, for longitudes in one common 360 degree range (which collocation arranges, C21). (The search for all points of a sample at once: C163.)", "quantifier": "all sets of latitudes/longitudes off the poles in one 360 degree range, all points and radii, all leaf sizes", "why_tests_cant": "Pruning uses rectangle distances which must be lower bounds of the sphere metric everywhere.", "anchors": ["cis/collocation/kdtree.py: HaversineDistanceKDTree.query_ball_tree, RectangleHaversine", "cis/collocation/haversinedistancekdtreeindex.py"]}
{"id": "C14", "title": "Separation constraint selects exactly the points inside every given separation", "statement": "A box constraint with any subset of h_sep, a_sep, p_sep, t_sep keeps exactly the data points closer than every given separation, in order; a separation that is not given does not restrict. The version with a horizontal index selects the same points, for data in one longitude range off the poles, if h_sep is not zero and no point is exactly at h_sep. (Zero and points exactly at h_sep: C161.)", "quantifier": "all data sets, sample points and combinations of given separations (including zero)", "why_tests_cant": "Conjunction of filters over all inputs, two implementations to be equivalent.", "anchors": ["cis/collocation/col_implementations.py: SepConstraint, SepConstraintKdtree"]}
{"id": "C15", "title": "Statistics kernels do not depend on the order of the data and respect bounds", "statement": "For mean, min, max, sum, stddev and moments kernels the result does not depend on the order of the selected values; min <= mean <= max; the number of points reported by moments is the number of values; an empty selection gives no value.", "quantifier": "all finite lists of values", "why_tests_cant": "Permutation invariance and inequalities over all lists.", "anchors": ["cis/collocation/col_implementations.py: mean, stddev, min, max, sum, moments", "cis/collocation/col_framework.py: AbstractDataOnlyKernel"]}
{"id": "C16", "title": "Nearest-neighbour kernels return a nearest point's value", "statement": "nn_altitude, nn_pressure and nn_time return the value of the first data point whose separation from the sample point is minimal, and so does nn_horizontal for great-circle distances if latitude and longitude are the first two coordinates of both data sets. (Other orders of the coordinates: C164.)", "quantifier": "all non-empty data lists and sample points", "why_tests_cant": "argmin loops with replacement tests; needs induction over lists.", "anchors": ["cis/collocation/col_implementations.py: nn_horizontal, nn_altitude, nn_pressure, nn_time", "cis/data_io/hyperpoint.py: compdist, compalt, comppres, comptime"]}
{"id": "C17", "title": "Ungridded collocation: output aligned with the sample, values only from constrained data", "statement": "Collocating onto an ungridded sample without a horizontal separation yields one output per sample point in sample order; output i is the kernel applied to exactly the valid data points selected by the separations for sample point i (in their original order for statistics), missing iff the selection is empty, the kernel is undefined, or (when requested) the sample value is missing. (With a horizontal separation: C163; without any valid data: C160.)", "quantifier": "all samples, all data sets with a valid point, all separations in altitude, pressure and time, all kernels", "why_tests_cant": "Alignment and masking must hold at every position for any data.", "anchors": ["cis/collocation/col_implementations.py: GeneralUngriddedCollocator.collocate, SepConstraintKdtree.get_iterator"]}
{"id": "C18", "title": "Linear interpolation is exact at grid nodes, reproduces affine fields and stays within the surrounding values", "statement": "Interpolating a regular grid at any in-range point gives a value between the least and the greatest of the surrounding node values, or a missing value if one of these is missing; at a node of data without missing values it gives the node value; a field affine in every coordinate is reproduced (also when extrapolating). (Descending axes: C159; axes with one node: C160; missing neighbours of a node: C167.)", "quantifier": "all strictly increasing axes (length >= 2; circular ones too except for affine fields; the second axis may also be decreasing), any number of dimensions, all fields and points", "why_tests_cant": "Continuous input domain and arbitrary rank.", "anchors": ["cis/collocation/gridded_interpolation.py: _RegularGridInterpolator._find_indices, _evaluate_linear"]}
{"id": "C19", "title": "Nearest-neighbour interpolation picks the nearest node", "statement": "Nearest-neighbour interpolation returns the value at a node that, in every dimension, is at minimal distance from the point. (Descending axes: C159.)", "quantifier": "all strictly increasing axes (the second may also be decreasing), ranks, fields and points", "why_tests_cant": "Continuous domain.", "anchors": ["cis/collocation/gridded_interpolation.py: _RegularGridInterpolator._evaluate_nearest"]}
{"id": "C20", "title": "Interpolation never extrapolates unless asked", "statement": "With extrapolation off, an interpolated value is missing if the point lies outside the closed range of the axis in some dimension, whatever the data are, and not missing if it lies within all of them and no data are missing; a missing sample point gives a missing value; for increasing and decreasing axes. (Whether the call succeeds: C18.)", "quantifier": "all axes in either direction, all points", "why_tests_cant": "Boundary conditions on a continuous domain and for each axis direction.", "anchors": ["cis/collocation/gridded_interpolation.py: GriddedUngriddedInterpolator, _RegularGridInterpolator"]}
{"id": "C21", "title": "Longitude wrapping is a projection onto one period", "statement": "fix_longitude_range(lons, s) maps each longitude to the unique value in [s, s+360) congruent to it modulo 360; it is idempotent, and leaves in-range values unchanged.", "quantifier": "all longitudes and range starts (for which the documented 2-period offset suffices)", "why_tests_cant": "Continuous domain, modulo arithmetic with negative operands.", "anchors": ["cis/utils.py: fix_longitude_range, find_longitude_wrap_start, wrap_longitude_coordinate_values"]}
{"id": "C22", "title": "Longitude range shift of hyperpoint views is congruent and in range", "statement": "set_longitude_range(s) on a view replaces each longitude with a value in [s, s+360) congruent modulo 360, leaves all other coordinates untouched, and is idempotent.", "quantifier": "all data and range starts, longitudes within one period either side", "why_tests_cant": "Single \u00b1360 shift correctness over a continuous domain.", "anchors": ["cis/data_io/hyperpoint_view.py: UngriddedHyperPointView.set_longitude_range, GriddedHyperPointView.set_longitude_range"]}
{"id": "C23", "title": "Changing the longitude range of gridded data only rotates the data", "statement": "GriddedData.set_longitude_range(s) yields strictly increasing longitudes in [s, s+360) with every data value and bound still attached to the same geographic position (longitude modulo 360), and points of auxiliary coordinates along longitude still with their data. (Data entirely outside the range, and bounds of auxiliary coordinates: C162.)", "quantifier": "all increasing longitude axes spanning less than 360 degrees, all range starts such that not all points lie below, nor all above, the range", "why_tests_cant": "Roll offset and 360 shift must match for all split positions, including none and all.", "anchors": ["cis/data_io/gridded_data.py: GriddedData.set_longitude_range"]}
{"id": "C24", "title": "A partial date denotes exactly the interval of instants that match it", "statement": "For a partial date/time not at the end of the year 9999, min() <= max(), both match all the given components, and every date-time of whole seconds matching the given components lies between them; a partial date is accepted exactly if it has a year, no inner component is missing and some date-time matches. (Fractions of the last second, and the end of 9999: C165.)", "quantifier": "all partial date-times (year to second, any prefix given)", "why_tests_cant": "Calendar arithmetic: month lengths and leap years over all years.", "anchors": ["cis/time_util.py: PartialDateTime, find_last_day_of_month"]}
{"id": "C25", "title": "Date-time strings parse to the written components or are rejected", "statement": "A string of the form Y[-M[-D[(T| |:)h[:m[:s]]]]] parses to exactly those components; more than three date or time components, or a time without a full date, are rejected.", "quantifier": "all component lists and separators", "why_tests_cant": "All strings of the grammar.", "anchors": ["cis/parse_datetime.py: _parse_partial_datetime, _parse_datetime"]}
{"id": "C26", "title": "Duration strings parse to the sum of their components", "statement": "A string P[nY][nM][nD][T[nH][nM][nS]] denotes 365 y + 30 m + d days, h hours, m minutes, s seconds, and is converted to that number of fractional days; a string without leading P is rejected.", "quantifier": "all component values and subsets of components", "why_tests_cant": "Infinite grammar.", "anchors": ["cis/parse_datetime.py: _parse_datetime_delta, _datetime_delta_to_float_days"]}
{"id": "C27", "title": "Time conversion to standard time preserves the instant", "statement": "convert_sec_since_to_std_time(seconds, ref) denotes the instant 'seconds' after ref exactly if ref is at midnight. (Other references: C165.)", "quantifier": "all second counts and reference instants", "why_tests_cant": "Needs all reference instants.", "anchors": ["cis/time_util.py: convert_sec_since_to_std_time"]}
{"id": "C28", "title": "Changing the year keeps everything else or reports impossibility", "statement": "set_year(t, y) returns t with only its year replaced, and None iff t is 29 February and y is not a leap year; calculate_mid_time is the midpoint of its arguments and symmetric.", "quantifier": "all date-times and years", "why_tests_cant": "All calendar dates.", "anchors": ["cis/time_util.py: set_year, calculate_mid_time, change_year_of_ungridded_data"]}
{"id": "C29", "title": "Colon-separated arguments with escapes round trip", "statement": "Splitting a datagroup string at unescaped colons and unescaping is the inverse of escaping the colons of the fields and joining, for fields of which none but the last ends in a backslash; number of fields and their order are preserved; for every string the pieces joined by colons are the string, and no piece but the last ends in a backslash. (Fields ending in a backslash: C166.)", "quantifier": "all lists of field strings", "why_tests_cant": "All strings including those with colons.", "anchors": ["cis/parse.py: parse_colon_and_comma_separated_arguments"]}
{"id": "C30", "title": "Bracket-aware splitting never splits inside brackets and loses nothing", "statement": "split_outside_brackets cuts exactly at the separators outside of all brackets; the pieces and the characters between them make up the input, and the pieces are returned in order, without the last one if that is empty. Pieces with closed brackets and without separators outside of them, the last not empty, are given back when joined by a separator and split. (An empty last piece: C166.)", "quantifier": "all strings, separators and bracket pairs", "why_tests_cant": "All strings with arbitrary nesting.", "anchors": ["cis/parse.py: split_outside_brackets"]}
{"id": "C31", "title": "Splitting on several separators yields exactly the non-blank fields", "statement": "The non-blank elements of multi_split(s, seps) are exactly the maximal non-empty runs of s without separator characters, in order; there is no blank element if no two consecutive runs are empty. (Several separators in a row: C166.)", "quantifier": "all strings and separators", "why_tests_cant": "Bug-prone in-place removal while iterating shows only for consecutive blanks.", "anchors": ["cis/parse.py: multi_split"]}
{"id": "C32", "title": "Variable aliases are unique across datagroups", "statement": "After alias assignment every variable of every datagroup has one alias; the default is the variable name; parsing fails iff some entry is not 'name' or 'name=alias' with both parts non-empty, or the aliases over all datagroups are not all different.", "quantifier": "all lists of datagroups", "why_tests_cant": "All lists.", "anchors": ["cis/parse.py: _set_aliases_for_datagroups"]}
{"id": "C33", "title": "An existing output file is never overwritten without consent", "statement": "A command writing to an existing output proceeds only if --force-overwrite was given, the environment variable CIS_FORCE_OVERWRITE is set and not 'false', or the user answered y to the prompt; and never if the output file is one of the inputs.", "quantifier": "all arguments, environments, file-system states and user answer sequences", "why_tests_cant": "All answer sequences of the prompt loop.", "anchors": ["cis/parse.py: _validate_output_file, _file_already_exists_and_no_overwrite, _output_file_matches_an_input_file"]}
{"id": "C34", "title": "Mask combination keeps exactly the points valid everywhere", "statement": "Applying a mask to an array masks an element iff it was masked or the mask says so and leaves values unchanged; applying the intersection mask to two arrays leaves an element visible in either iff it is visible in both; creating a masked array for missing values masks exactly the elements equal to one of them.", "quantifier": "all arrays and masks", "why_tests_cant": "All arrays.", "anchors": ["cis/utils.py: apply_mask_to_numpy_array, apply_intersection_mask_to_two_arrays, create_masked_array_for_missing_values"]}
{"id": "C35", "title": "Comparison statistics use exactly the points valid in both data sets", "statement": "points_count is the number of positions valid in both; means, standard deviations and mean difference are computed over exactly these positions; abs_mean equals mean2 - mean1.", "quantifier": "all pairs of equally shaped masked arrays", "why_tests_cant": "All arrays and masks.", "anchors": ["cis/stats.py: StatsAnalyzer"]}
{"id": "C36", "title": "Ungridded subsetting keeps exactly the points within all limits, in order", "statement": "Subsetting returns exactly the points whose coordinates lie in the closed limits for all constrained coordinates (limits open at either end count as unlimited) and, if a shape is given, in the shape; in original order with their data and all coordinates aligned; None iff none; subsetting is idempotent and independent of the order of the limits; the input data are unchanged. (Longitudes are understood modulo 360: C37.)", "quantifier": "all data, limits and coordinate sets", "why_tests_cant": "All data.", "anchors": ["cis/subsetting/subset.py: UngriddedSubsetConstraint.constrain, subset"]}
{"id": "C37", "title": "Longitude limits of a subset are understood modulo 360", "statement": "A longitude range [a, b] given to subset selects the points whose longitude is congruent modulo 360 to a value within [a, b], if the data follow one of the conventions (-180,180) and [0,360) and contain no longitude of exactly 180, and the limits follow one of them. (Other limits and longitudes: C162.)", "quantifier": "all data longitudes in (-180,180) or in [0,360) without 180, all limits in [-180,180) or [0,360)", "why_tests_cant": "Continuous domain; convention detection heuristics.", "anchors": ["cis/subsetting/subset.py: UngriddedSubsetConstraint._create_data_for_subset"]}
{"id": "C38", "title": "Every variable of a data list is subset alike", "statement": "Subsetting a list of variables on the same points by limits applies the limits to each variable as if it were alone, if something is selected. (Nothing selected: C160; shapes and other points: C168.)", "quantifier": "all lists of variables with the same coordinates and all limits that select something", "why_tests_cant": "Depends on list length.", "anchors": ["cis/subsetting/subset.py: subset", "cis/data_io/ungridded_data.py: UngriddedDataList.subset"]}
{"id": "C39", "title": "Aggregation grid tiles the requested range", "statement": "aggregation_grid_array(start, end, delta) gives cell centres whose cells [c - d/2, c + d/2) are contiguous, disjoint, start at start and cover [start, end), the last cell exceeding end by less than delta.", "quantifier": "all start < end and delta > 0", "why_tests_cant": "Continuous parameters; off-by-one in number of cells.", "anchors": ["cis/aggregation/ungridded_aggregator.py: aggregation_grid_array, _make_partially_collapsed_coord"]}
{"id": "C40", "title": "Ungridded aggregation conserves points", "statement": "For positive steps and data with at least one point: the value of each aggregated cell is the kernel's value for exactly the valid points of the cell; the sum of the point counts (and of the sum kernel values) over all cells equals the number (sum) of the valid data points inside the grid, which has every point in the requested ranges. The same holds where Iris cuts the bounds of latitudes off at the poles, for points off the north pole. (Negative steps: C159; no data: C160; the pole: C162.)", "quantifier": "all non-empty data, all grids with positive steps, any number of dimensions, kernels, and outcomes of the sort", "why_tests_cant": "Global conservation over all data.", "anchors": ["cis/aggregation/ungridded_aggregator.py: UngriddedAggregator.aggregate", "cis/collocation/data_index.py: GridCellBinIndexInSlices", "cis/collocation/col_implementations.py: GeneralGriddedCollocator"]}
{"id": "C41", "title": "Collapsing gridded data keeps the remaining dimensions attached to their coordinates", "statement": "After collapsing some dimensions of gridded data the remaining coordinate dimensions are renumbered by their position among the remaining dimensions; a coordinate along the first dimensions of the data of which some are collapsed is averaged along exactly its collapsed dimensions. (Coordinates along other dimensions: C164.)", "quantifier": "all dimension sets", "why_tests_cant": "All dimension combinations.", "anchors": ["cis/aggregation/gridded_collapsor.py: GriddedCollapsor._calc_new_dims"]}
{"id": "C42", "title": "HyperPoint separations are symmetric and comparison picks the nearer", "statement": "pres_sep, alt_sep, time_sep are symmetric, pres_sep >= 1 for positive pressures with equality iff equal; compdist etc. return True iff the second candidate is strictly nearer; modified() replaces exactly the components that are given (a time as date-time object, a single value). (Times as numbers and lists of values: C176.)", "quantifier": "all points", "why_tests_cant": "All real coordinate values.", "anchors": ["cis/data_io/hyperpoint.py: HyperPoint"]}
{"id": "C43", "title": "Loading ungridded data removes exactly the points with invalid coordinates, consistently", "statement": "After loading, exactly the points none of whose coordinates is masked or (in arrays of numbers) NaN remain; the remaining data values and all coordinate values stay aligned and in order; the operation is idempotent; the points got from the data are aligned if its flattened array was not read before. (NaN in arrays of objects, shared coordinates, earlier reads: C167, C168.)", "quantifier": "all data, coordinates and masks", "why_tests_cant": "All data sizes.", "anchors": ["cis/data_io/ungridded_data.py: UngriddedData._post_process, UngriddedCoordinates._post_process"]}
{"id": "C44", "title": "Lazy data are observationally the loaded data", "statement": "Whatever the sequence of reads (data, data_flattened), assignments and conversions, as long as memory suffices and set_longitude_range is not the first thing done to a coordinate: data is the last assigned/loaded (converted) array and the loader is called at most once; without conversions that bypass the setter, data_flattened is always its flattening. (Exhausted memory: C171; other histories: C168.)", "quantifier": "all operation histories, all points at which data are loaded", "why_tests_cant": "Cache coherence over all histories.", "anchors": ["cis/data_io/ungridded_data.py: LazyData", "cis/data_io/Coord.py: Coord.convert_*"]}
{"id": "C45", "title": "Coordinate lists hold at most one coordinate per standard name and look up by it", "statement": "A CoordList built by append never holds two coordinates with the same non-empty standard name; get_coords returns exactly the coordinates matching all given criteria in order; what get_coord returns is characterised exactly, and for criteria without the fallbacks it is the coordinate iff exactly one matches and otherwise CoordinateNotFoundError; find_standard_coords gives the only coordinate with each standard name, for lists of other than one coordinate. (The fallbacks: C169, C160.)", "quantifier": "all coordinate lists and criteria", "why_tests_cant": "All append histories.", "anchors": ["cis/data_io/Coord.py: CoordList"]}
{"id": "C46", "title": "Data lists stay homogeneous", "statement": "A CommonDataList only ever holds variables that are all of its kind (gridded or ungridded), with equal numbers of coordinates, and with shapes of the coordinates that agree as far as both go (equal if they have equally many dimensions); append succeeds exactly in this case and otherwise raises and leaves the list unchanged; extend appends up to the first object that cannot be appended. (Shapes of other lengths, values, and failed extends: C168, C171.)", "quantifier": "all append/extend histories", "why_tests_cant": "All histories.", "anchors": ["cis/data_io/common_data.py: CommonDataList.append, extend, append_or_extend"]}
{"id": "C47", "title": "Arithmetic on ungridded data respects units and never changes operands unless in place", "statement": "add/subtract fail with NotImplementedError iff both operands have units and these differ, and never change the units; multiply/divide/exponentiate combine the units; an operation succeeds iff the units combine and the second operand can be stretched to the shape of the first; the result is elementwise, has the shape and coordinates of the left operand and is masked where an operand is; without in_place all existing objects are unchanged, with in_place the operand becomes the result and all others are unchanged (also for x += x); a failed operation changes nothing. Functions and powers likewise; in place for data of a float type (abs and integer powers for all). (Others in place on integers: C170.)", "quantifier": "all data and operations", "why_tests_cant": "All operand combinations.", "anchors": ["cis/maths.py"]}
{"id": "C48", "title": "Evaluate returns data on the sample's coordinates and rejects unsafe expressions", "statement": "Calculator.evaluate rejects every expression containing two consecutive underscores without evaluating it, gives expressions no names but the whitelisted functions, numpy and the variables' aliases, and either fails or returns data of the shape (flattened for ungridded data) and coordinates of the first variable; the history tells expression and variables; the values and coordinates of the input variables are not changed, and neither is anything else of gridded and of one-dimensional data. (The recorded shape of other coordinates: C168.)", "quantifier": "all expressions and data lists", "why_tests_cant": "All expressions.", "anchors": ["cis/evaluate.py: Calculator"]}
{"id": "C49", "title": "Product selection is by priority among matching, valid products", "statement": "For a file without explicit product, the chosen product is one of those found, one of its patterns matches the base name, it reports no file type error, no such product has a higher priority, and among those of equal priority it is the first by name; it fails iff there is none. With an explicit product a product of exactly this name is used.", "quantifier": "all plugin sets, signatures and files", "why_tests_cant": "All plugin sets.", "anchors": ["cis/data_io/products/AProduct.py: __get_class"]}
{"id": "C50", "title": "All plugins are discovered and abstract ones excluded", "statement": "Plugin discovery returns every concrete direct or indirect subclass, built in or defined in any plugin file, nothing that is neither a subclass nor in a plugin file, and no class whose name marks it as abstract if no two such classes are found one directly after the other. (Otherwise: C175.)", "quantifier": "all sets of plugin files and classes", "why_tests_cant": "All class lists.", "anchors": ["cis/plugin.py: find_plugins, find_plugin_classes"]}
{"id": "C51", "title": "Writing variables to a file never loses a variable", "statement": "Writing a data object and its coordinates to NetCDF stores each one under a distinct variable with its own values and nothing else, if the names under which they are written differ; under any names, what is stored under a name is never replaced. (Equal names: C169.)", "quantifier": "all variable and coordinate names", "why_tests_cant": "Name clashes.", "anchors": ["cis/data_io/write_netcdf.py: __create_variable, write"]}
{"id": "C52", "title": "Collocator dispatch matches the documented table", "statement": "sampled_from/collocated_onto selects the collocator, constraint and kernel according to whether sample and data are gridded and the 'how' argument, and raises ValueError for any other combination.", "quantifier": "all (sample kind, data kind, how, kernel) combinations", "why_tests_cant": "Finite but cross-product not tested.", "anchors": ["cis/data_io/ungridded_data.py: _ungridded_sampled_from", "cis/data_io/gridded_data.py: GriddedData.sampled_from"]}
{"id": "C53", "title": "Gridded hyperpoint views enumerate grid points consistently", "statement": "Iterating over all points of a gridded view yields one hyperpoint per grid cell in C order, item i of the view being the i-th one; enumerating non-masked points yields exactly the valid ones with their positions; if every dimension has a coordinate with a standard name of its own, each coordinate of a point is taken from the index of its own dimension, and default iteration is the same if all dimensions are longer than one. Ungridded views likewise, point by point. (Other grids: C164.)", "quantifier": "all grids whose dimensions have standard coordinates (iteration: all grids)", "why_tests_cant": "All shapes.", "anchors": ["cis/data_io/hyperpoint_view.py: GriddedHyperPointView"]}
{"id": "C54", "title": "History is append-only", "statement": "add_history adds a time-stamped line after any previous history and never removes earlier lines.", "quantifier": "all sequences of history additions", "why_tests_cant": "All histories.", "anchors": ["cis/data_io/ungridded_data.py: LazyData.add_history", "cis/data_io/gridded_data.py: GriddedData.add_history", "cis/data_io/common_data.py: CommonDataList.add_history"]}
{"id": "C55", "title": "Histogram bin edges start at the requested minimum and end at the requested maximum", "statement": "calculate_histogram_bin_edges uses a given minimum (maximum) as first (last) edge, otherwise the data's, with edges evenly spaced by the step, or a tenth of the range, if limits given are not 0 and the step divides the range. (Otherwise: C161.)", "quantifier": "all data limits, limits given, and steps that divide the range", "why_tests_cant": "Includes the falsy value zero.", "anchors": ["cis/utils.py: calculate_histogram_bin_edges"]}
{"id": "C56", "title": "NaN-aware array equality is equality with NaN equal to NaN only", "statement": "array_equal_including_nan(a, b) is true iff the shapes are equal and each pair of elements is equal or both are NaN; it is symmetric.", "quantifier": "all arrays", "why_tests_cant": "All positions of NaNs.", "anchors": ["cis/utils.py: array_equal_including_nan"]}
{"id": "C57", "title": "Matching points to a sample point does not depend on earlier calls", "statement": "The points selected by the indexed separation constraint for a sample point are a function of the data indexed, the sample position and the separations, whatever calls were made before, as long as only one data set is indexed. (Indexing other data: C168.)", "quantifier": "all call histories that index one data set", "why_tests_cant": "Needs every history of indexing and matching on the same constraint object (there is a cache).", "anchors": ["cis/collocation/col_implementations.py: SepConstraintKdtree.constrain_points, haversine_distance_kd_tree_index"]}
{"id": "C58", "title": "The haversine functions give the great-circle distance", "statement": "haversine distances between two positions equal the Earth radius times the angle between the two unit position vectors; they form a (pseudo)metric, and do not depend on the longitude convention; the furthest point from p is its antipode.", "quantifier": "all pairs and triples of positions", "why_tests_cant": "Real-valued domain.", "anchors": ["cis/utils.py: haversine", "cis/collocation/kdtree.py: haversine_distance, haversine_distance_radians, furthest_point_from"]}
{"id": "C59", "title": "The nearest-point lookup returns a nearest data point", "statement": "The point returned by the nearest neighbour lookup of the horizontal index is at the least great-circle distance from the sample point.", "quantifier": "all data sets and sample points", "why_tests_cant": "All data sets, tree shapes and geometries.", "anchors": ["cis/collocation/kdtree.py: HaversineDistanceKDTree._query", "cis/collocation/haversinedistancekdtreeindex.py: find_nearest_point"]}
{"id": "C60", "title": "A hybrid vertical coordinate is evaluated at the horizontal position of the sample", "statement": "Interpolating data with a hybrid height or pressure coordinate, affine in the horizontal coordinates (and time) at each level, is as on a rectilinear grid whose vertical axis is the hybrid coordinate at the sample's horizontal position, if the hybrid coordinate is along the leading dimensions. (Other dimensions: C164.)", "quantifier": "all grids with ascending non-circular axes, hybrid fields along the leading dimensions, sample points", "why_tests_cant": "All ranks and all subsets of dimensions on which the hybrid coordinate may depend.", "anchors": ["cis/collocation/gridded_interpolation.py: _RegularGridInterpolator.__init__, _find_vertical_index"]}
{"id": "C61", "title": "Optional arguments of a datagroup are checked and assigned to the option they name", "statement": "Each 'key=value' of the comma separated optional part of a datagroup is assigned to the option of that name after its value was checked; unknown options, invalid values and more options than there are are rejected; nothing else is set. (If there is only one optional argument its value is taken unchecked: C166.)", "quantifier": "all sets of options and all written options with different keys, with nested brackets", "why_tests_cant": "All option orders and nestings of brackets; the loops change the list they iterate over.", "anchors": ["cis/parse.py: parse_colon_and_comma_separated_arguments"]}
{"id": "C62", "title": "Collocating several datagroups keeps the output of each", "statement": "The output file of a collocation of several datagroups holds the output of every datagroup.", "quantifier": "all lists of datagroups", "why_tests_cant": "All numbers of datagroups.", "anchors": ["cis/cis_main.py: col_cmd", "cis/data_io/ungridded_data.py: UngriddedDataList.save_data", "cis/data_io/write_netcdf.py: write_coordinate_list"]}
{"id": "C63", "title": "Binning and aggregation keep the grid coordinates in order", "statement": "The data obtained by aggregating or binning ungridded data have, in the order of the grid, one dimension for every coordinate of the grid that is a standard coordinate of the data. (Other coordinates: C169.)", "quantifier": "all grids, all sets of coordinates of data and grid", "why_tests_cant": "All combinations and orders of coordinates.", "anchors": ["cis/collocation/col_implementations.py: make_coord_map, _find_standard_coords, GeneralGriddedCollocator.collocate"]}
{"id": "C64", "title": "Missing sample cells stay missing when binning onto a grid", "statement": "With missing_data_for_missing_sample, a cell of the result of binning onto a grid is missing if the sample is missing in that cell, and otherwise is the kernel's value for the data points in the cell, for kernels of data values; the sample is looked up at the index of the cell along the same coordinates. (Other kernels: C164.)", "quantifier": "all samples, non-empty data and orders of coordinates, increasing coordinates", "why_tests_cant": "All orders of the sample's dimensions.", "anchors": ["cis/collocation/col_implementations.py: BinnedCubeCellOnlyConstraint"]}
{"id": "C65", "title": "Copies of coordinate lists are complete", "statement": "Copying a coordinate list gives a list with the same coordinates in the same order, for every list of coordinates with standard names that may exist; a copy is never incomplete. (Coordinates without standard name: C169.)", "quantifier": "all coordinate lists", "why_tests_cant": "All lists, including coordinates without standard name.", "anchors": ["cis/data_io/Coord.py: CoordList.copy"]}
{"id": "C66", "title": "A coordinate found for a keyword matches the keyword", "statement": "The coordinate used for a subset or aggregation keyword, among other than one coordinate, has this name, standard name, axis or variable name; a coordinate with exactly this name has precedence. (A single coordinate: C160.)", "quantifier": "all coordinate lists and keywords", "why_tests_cant": "All combinations of names and axes.", "anchors": ["cis/data_io/common_data.py: CommonData._get_coord", "cis/data_io/Coord.py: CoordList.get_coord"]}
{"id": "C67", "title": "hyper_point puts each coordinate into its own component", "statement": "UngriddedData.hyper_point(i) and UngriddedCoordinates.hyper_point(i) return a point whose latitude, longitude, altitude, air pressure and time are those of the data at i.", "quantifier": "all data and indices", "why_tests_cant": "All values.", "anchors": ["cis/data_io/ungridded_data.py: UngriddedData.hyper_point, UngriddedCoordinates.hyper_point"]}
{"id": "C68", "title": "Points made into data come back", "statement": "UngriddedData.from_points_array(points).get_all_points() has the same points in the same order, for points with a latitude and at least one more coordinate; the values of a list of points are the first values of the points. (Other points: C160.)", "quantifier": "all lists of points with the same coordinates", "why_tests_cant": "All combinations of coordinates.", "anchors": ["cis/data_io/ungridded_data.py: UngriddedData.from_points_array, get_all_points", "cis/data_io/hyperpoint.py: HyperPointList"]}
{"id": "C69", "title": "Setting the longitude range of a view brings longitudes into it", "statement": "set_longitude_range(start) of a hyperpoint view makes every longitude lie in [start, start+360), unchanged modulo 360, if it was from 360 degrees below the start to less than 720 above. (Others: C162.)", "quantifier": "all starts, and all longitudes in [start-360, start+720)", "why_tests_cant": "All reals.", "anchors": ["cis/data_io/hyperpoint_view.py: UngriddedHyperPointView.set_longitude_range, GriddedHyperPointView.set_longitude_range"]}
{"id": "C70", "title": "The size of bare coordinates is the number of points", "statement": "UngriddedCoordinates.size and count() are the number of points, for two or more coordinates. (One coordinate: C160.)", "quantifier": "all coordinate lists", "why_tests_cant": "All lists.", "anchors": ["cis/data_io/ungridded_data.py: UngriddedCoordinates.size"]}
{"id": "C71", "title": "Metadata of arithmetic results describe the results", "statement": "Shape, range, history and user attributes of the result of an arithmetic operation are those of the result: the range is the range of the new data, the history names the operation, attributes are kept.", "quantifier": "all data, coordinates and operations", "why_tests_cant": "All operands and histories of in-place operations.", "anchors": ["cis/maths.py: _math_op_common", "cis/data_io/ungridded_data.py: UngriddedData.copy", "cis/data_io/Coord.py: Coord.copy"]}
{"id": "C72", "title": "One collocator may be used for several gridded variables and calls", "statement": "Collocating gridded variables onto ungridded points with one collocator object, over any history of calls and any list of variables that share one grid, points and method, gives each variable its own values interpolated on its own grid at the points of the call, and on ascending grids the calls succeed. (Other grids or points: C168.)", "quantifier": "all histories of calls and lists of variables on one grid, all grids, points and methods", "why_tests_cant": "The object caches its interpolator between calls; whether a stale cache matters depends on the history, of which there are infinitely many.", "anchors": ["cis/collocation/col_implementations.py:GriddedUngriddedCollocator.collocate", "cis/collocation/gridded_interpolation.py:GriddedUngriddedInterpolator"]}
{"id": "C73", "title": "Gridded data collocated onto a grid lie on the sample grid", "statement": "The result of collocating gridded data onto a gridded sample has as dimensions the coordinates shared with the sample, with the points and in the order of the sample, followed by the dimensions only the data have; every value is the interpolation of the data at the coordinates of its own place, matched by coordinate name. Other kernels are refused.", "quantifier": "all samples and data of any rank, dimension order and size, every output index", "why_tests_cant": "Any number and order of dimensions; transposition errors only show for particular permutations.", "anchors": ["cis/collocation/col_implementations.py:GriddedCollocator.collocate", "cis/collocation/col_implementations.py:GriddedCollocator._iris_interpolate"]}
{"id": "C74", "title": "Missing sample cells give missing values in gridded collocation", "statement": "With missing_data_for_missing_sample, a value collocated onto a grid all of whose dimensions the data have is missing iff the interpolation is missing there or the sample is masked at the same coordinates, for every value of the dimensions only the data have; if the sample has fewer coordinates in common with the data than dimensions, its mask is not used. (Scalar coordinates in place of a dimension: C164.)", "quantifier": "all samples, masks and data of any rank and size", "why_tests_cant": "The mask is repeated and reshaped through flat positions; correctness depends on every combination of sizes.", "anchors": ["cis/collocation/col_implementations.py:GriddedCollocator._make_output_mask", "cis/utils.py:apply_mask_to_numpy_array"]}
{"id": "C75", "title": "Stored values are decoded exactly once", "statement": "Reading a variable gives, for every stored value, either a masked point, exactly when the file's attributes (missing value or fill value, valid range, valid minimum, valid maximum) declare the stored value invalid, or the stored value with the declared scale factor and offset applied exactly once, in the convention of the format (NetCDF: x*scale+offset; HDF4: (x-offset)*scale; CALIOP: x/scale-offset as the code documents; CloudSat: (x-offset)/factor). The attributes refer to stored values, so they are tested before scaling. (Limits that are no numbers of the type of the data, integers with one of scale and offset, the CloudSat operator >=: C172.)", "quantifier": "all stored arrays and all combinations of present and absent attributes, with limits in order and of the type of the data", "why_tests_cant": "The attributes combine freely, and a value at a limit or equal to the fill value may occur at any position.", "anchors": ["cis/data_io/netcdf.py:get_data", "cis/data_io/netcdf.py:apply_offset_and_scaling", "cis/data_io/hdf_sd.py:get_data", "cis/data_io/products/caliop.py"]}
{"id": "C76", "title": "Variables in groups are listed and read under their full names", "statement": "The variables listed for a NetCDF file are exactly those of its root and of all nested groups, each once, under the name 'group/subgroup/variable'; reading a name succeeds iff it names a variable of the file and gives that variable; a listed name is readable. Excluding coordinates removes exactly the variables whose listed name is the name of a dimension; restricting to spatio-temporal dimensions keeps exactly the variables all of whose dimensions are listed.", "quantifier": "all trees of groups of any depth and all names", "why_tests_cant": "Depth and branching are unbounded and the same variable name may occur in several groups.", "anchors": ["cis/data_io/netcdf.py:get_netcdf_file_variables", "cis/data_io/netcdf.py:read", "cis/data_io/netcdf.py:find_netcdf_variables", "cis/data_io/netcdf.py:remove_variables_with_non_spatiotemporal_dimensions"]}
{"id": "C77", "title": "Reading many files gives every file's data, in file order", "statement": "Reading variables from many files succeeds iff every file has every requested variable; the result has for each requested variable exactly one object per file, in the order of the files, and its data are the points of the first file, then of the second and so on, with their masks; so values and coordinates at the same position come from the same file and place. For HDF4 the requested names differ and a variable is of the same kind in all files. (Other HDF4 files, and the listing of vdata: C173.)", "quantifier": "all lists of files, all requested variables, any kind of variable", "why_tests_cant": "The number of files and the combinations of variables and kinds per file are unbounded.", "anchors": ["cis/data_io/netcdf.py:read_many_files_individually", "cis/data_io/hdf.py:read", "cis/data_io/hdf.py:_read_hdf4", "cis/data_io/hdf.py:read_data", "cis/data_io/hdf.py:get_hdf4_file_variables", "cis/utils.py:concatenate", "cis/utils.py:add_element_to_list_in_dict"]}
{"id": "C78", "title": "Each slice of a multi-dimensional MODIS variable has its own data", "statement": "Reading a MODIS L2 variable with more than two dimensions gives one object for every index of the leading dimensions, in index order, and each has the data at its own index from every file.", "quantifier": "all numbers of files, all sizes of the leading dimensions, every slice", "why_tests_cant": "Data are loaded lazily through shared handles, so what a slice shows depends on when it is read.", "anchors": ["cis/data_io/products/MODIS.py:MODIS_L2.create_data_object", "cis/data_io/hdf_sd.py:HDF_SDS.get", "cis/data_io/common_data.py:CommonDataList.append"]}
{"id": "C79", "title": "Reading a list of variables gives what was asked for, in order", "statement": "read_data_list expands each requested name in turn: a name without wildcards stands for itself, a pattern (without character classes) for exactly the variables of the files it matches; it is refused iff nothing remains. If every variable can be read, all are of one kind with matching coordinates and there are at least as many aliases as variables (or none), the result has one object per expanded name in this order, read from all files, with the alias at its place; too few aliases are refused. read_data refuses a name standing for several variables. (Extra aliases, aliases after patterns without match, brackets: C169.)", "quantifier": "all file variables, requested names and patterns without opening brackets, lists of aliases and readers", "why_tests_cant": "Patterns and variable names are arbitrary strings; alignment of aliases with expanded names depends on what matches.", "anchors": ["cis/data_io/data_reader.py:DataReader.read_data_list", "cis/data_io/data_reader.py:DataReader._expand_wildcards", "cis/__init__.py:read_data", "cis/__init__.py:read_data_list"]}
{"id": "C80", "title": "Every AERONET column has its own name", "statement": "Listing the variables of an AERONET file gives one name per column in column order (including the SDA wavelength columns the header does not list), without characters that are invalid in NetCDF names; coordinates have their standard names; if the header names can be told apart without these characters and are not numbered like repeated ones, all names are different. (Other headers: C169.)", "quantifier": "all AERONET headers and first data lines", "why_tests_cant": "Header names are arbitrary strings; cleaning and numbering may make different names equal.", "anchors": ["cis/data_io/aeronet.py:get_aeronet_version", "cis/data_io/aeronet.py:get_aeronet_file_variables"]}
{"id": "C81", "title": "Subset limits: what is accepted and what is stored", "statement": "A limits argument of `cis subset` is accepted segment by segment. For a segment `dim=[a,b]` or `dim=[a]` the stored limits are the values of the written texts under the written name: dates (a partial date standing for its interval) for t and time, numbers for y and z, numbers or dates for other names; limits under the name x that are accepted are finite numbers, in increasing order and at most 360 degrees apart, and others are refused; if one segment is refused the whole argument is refused.", "quantifier": "all argument strings, names, numbers (including infinities and NaN) and any number of segments", "why_tests_cant": "The strings are unbounded; unit tests check a handful of arguments and not the equivalence of acceptance with the numeric condition.", "anchors": ["cis/parse.py:get_subset_limits", "cis/parse.py:parse_float", "cis/parse_datetime.py:parse_as_number_or_datetime"]}
{"id": "C82", "title": "Aggregation grids: what is accepted and what is stored", "statement": "A segment `dim=[a,b,c]` of an aggregation argument is stored as start, end and spacing with the written values under the written name; a bare name is a complete collapse; start and end without spacing are refused; a grid under the name x is refused unless its ends are in order and at most 360 degrees apart; an argument of several segments has each segment's grid under its name, and is refused if one of its segments is.", "quantifier": "all argument strings, names and values", "why_tests_cant": "The strings are unbounded; unit tests do not try malformed segments systematically.", "anchors": ["cis/parse.py:get_aggregate_grid"]}
{"id": "C83", "title": "Gridded subsetting keeps exactly the grid within the limits", "statement": "Subsetting gridded data by limits gives, dimension by dimension, exactly the points within the limits (coordinates in degrees modulo 360, and moved into the limits), in order (up to moving one block to the front when a longitude range is crossed), and every kept cell has the value of the same cell of the input; if no cell lies within all limits there is no result; limits further apart than 360 degrees are refused. With a shape, for data without missing values on latitude and longitude in this order, exactly the cells contained in the shape keep their values and all others become missing. (Shapes on other data: C164, C167.)", "quantifier": "all grids of any rank and size, all limits on any set of dimensions; shapes on unmasked data of dimensions latitude, longitude", "why_tests_cant": "The grids, limits and masks are unbounded; the existing tests use a few grids, always latitude-longitude ordered and unmasked for shapes.", "anchors": ["cis/subsetting/subset.py:GriddedSubsetConstraint", "cis/subsetting/subset.py:_get_gridded_subset_region_indices"]}
{"id": "C84", "title": "Distances with units are read as written", "statement": "A separation given as a number followed by optional blanks and an optional unit made of letters is read as that number in that unit: horizontal separations are in km when no unit is given, vertical ones in m; m and km are converted exactly; any other such unit and text without a number are refused.", "quantifier": "all numerals (sign, digits, decimal point, exponent) and all units", "why_tests_cant": "The numerals and units are unbounded; the tests try a few strings.", "anchors": ["cis/utils.py:parse_distance_with_units_to_float_km", "cis/utils.py:parse_distance_with_units_to_float_m", "cis/utils.py:split_into_float_and_units"]}
{"id": "C85", "title": "Methods with arguments are read as written", "statement": "A collocator, constraint or kernel written as `method[key1=value1,key2,...]` is read as that method with exactly those keys and values, in order; a key without value counts as true; for names and values without brackets, commas and equals signs, and different keys. (Others: C166.)", "quantifier": "all method names, keys and values without brackets, commas and equals signs, any number of arguments", "why_tests_cant": "The strings are unbounded; the tests try a few.", "anchors": ["cis/parse.py:extract_method_and_args", "cis/utils.py:parse_key_val_list"]}
{"id": "C86", "title": "A Taylor diagram places each dataset by its correlation with the reference, its relative standard deviation and its bias", "statement": "For each dataset of a Taylor diagram (of one-dimensional data) the correlation plotted is Pearson's correlation with the first dataset over the points valid in both (between -1 and 1), gamma is the ratio of the standard deviations and the bias is the difference of the means in standard deviations of the reference; the reference is at correlation 1, gamma 1, bias 0; the distance from the reference point is, for data missing at the same points, the centred RMS difference in standard deviations of the reference; the bias flag has unit direction perpendicular to that line. (Two-dimensional data, logarithms with missing values, other masks: C174.)", "quantifier": "all one-dimensional datasets of any size and mask", "why_tests_cant": "A statement about all real arrays and masks (Cauchy-Schwarz, law of cosines); tests compare images.", "anchors": ["cis/plotting/taylor.py: Taylor.__init__, Taylor.__call__"]}
{"id": "C87", "title": "Profile data (CloudSat, CALIOP): every measurement keeps its own position, time and height", "statement": "The flattened coordinates of CloudSat and CALIOP data list, file by file and profile by profile, each level of the profile with that profile's latitude, longitude and time (start time of its own file included) and that level's height (altitude in m); all coordinate arrays have one element for each measurement; the pressure is included only if it has the shape of the data. CALIOP files that are read together have the same altitudes. (Other altitudes, and the recorded shape: C173.)", "quantifier": "all numbers of files, profiles and levels, all masks", "why_tests_cant": "The alignment of arrays expanded along different axes and joined over files has to hold for every shape.", "anchors": ["cis/data_io/products/cloudsat.py:CloudSat._create_coord_list", "cis/data_io/products/caliop.py:abstract_Caliop._create_coord_list", "cis/utils.py:expand_1d_to_2d_array"]}
{"id": "C88", "title": "A plot has every layer once, in order, with its own options", "statement": "Plotting several data objects draws each exactly once, in the order given, in the same axes, with the general options replaced by the layer's own options (colour, label, ...) where it has them; the type of plot of a layer is its own or that of the last layer before it that had one; a comparative plot draws the first object on the x axis and the second on the y axis with the options of the first, and is refused for other than two; a wrong number of option sets is refused; a Taylor diagram takes markers and colours from all layers or from none. (Types carried over, options ignored, several variables in a datagroup, lists of y axes: C174.)", "quantifier": "all numbers of layers and all option sets", "why_tests_cant": "The option sets and numbers of layers are unbounded; the tests compare a few images.", "anchors": ["cis/plotting/plot.py:multilayer_plot", "cis/plotting/plot.py:taylor_plot", "cis/plotting/formatted_plot.py:Plotter", "cis/cis_main.py:plot_cmd"]}
{"id": "C89", "title": "The axes of a plot are those asked for", "statement": "The x and y axis of a plot show the coordinate the user names; without a name the coordinate of that axis, else one as long as the data along the dimension; nothing else is ever chosen if there are two or more coordinates. The type of plot is the one asked for, else the default for the kind of data. (Unknown names: C174.)", "quantifier": "all sets of coordinates, shapes, names", "why_tests_cant": "The sets of coordinates are unbounded; the choice depends on all of them.", "anchors": ["cis/plotting/plot.py:get_axis", "cis/plotting/plot.py:_try_coord", "cis/plotting/plot.py:basic_plot"]}
{"id": "C90", "title": "Gridded data are drawn at their own coordinates", "statement": "In contour and scatter plots of two-dimensional gridded data every value is drawn at its own coordinates, whichever coordinate is the x axis, for cubes that are not square or have the x axis on their columns; nothing else is drawn but a copy of the first column one step after the last if the columns are equally spaced. In heat maps with the x axis on the columns of the array every value fills exactly its own cell and nothing else is drawn, if there is not one row less than columns. (Other cubes: C174.)", "quantifier": "all shapes, coordinates, choices of the axes and transpositions under these conditions", "why_tests_cant": "Whether it holds depends on the shape of the data (square, one row less than columns); the tests have a few shapes.", "anchors": ["cis/plotting/genericplot.py:Generic2DPlot._cube_manipulation", "cis/plotting/heatmap.py:Heatmap"]}
{"id": "C91", "title": "Limits, ticks, sizes and levels of a plot are those asked for", "statement": "The ticks of an axis that is not inverted start at its lower limit, are the step apart and cover it; the figure has the size asked for (ratio 4:3 if only one of width and height is given); maps have finer coastlines for smaller extents and are centred such that the data, if all in one convention, are not wrapped; contour levels are those given; labels show the units. (Inverted axes, data without longitude, steps between levels: C174.)", "quantifier": "all limits, steps, sizes, data", "why_tests_cant": "Real-valued parameters; the tests compare a few images.", "anchors": ["cis/plotting/formatted_plot.py:apply_axis_limits", "cis/plotting/formatted_plot.py:get_x_wrap_start", "cis/plotting/formatted_plot.py:Plotter.set_width_and_height", "cis/plotting/plot.py:drawcoastlines", "cis/plotting/contourplot.py:ContourPlot", "cis/utils.py:find_longitude_wrap_start"]}
{"id": "C92", "title": "GASSP and NCAR-RAF coordinates", "statement": "A NetCDF file is read as NCAR-RAF/GASSP exactly if it has the attribute GASSP_Version or Conventions = NCAR-RAF/nimbus. The coordinates are those of the documented rules in order of preference (variables named by Time/Latitude/Longitude/Vertical_Coordinate, altitude 0 if none; fixed station values of each file; the four names of Coordinates). Reading many files gives every point the time, converted with its own file's units and time stamp, and the position of its own file. A variable with one further dimension gets as auxiliary coordinate the variable of this name or one along this dimension. (Station altitudes that are blank, and the values of auxiliary coordinates: C173.)", "quantifier": "all lists of files with any attributes and variables, all requested variables", "why_tests_cant": "attributes of every file, number of points per file and order of variables and dimensions combine freely; tests use one file of each kind", "anchors": ["cis/data_io/products/NCAR_NetCDF_RAF.py: NCAR_NetCDF_RAF_variable_name_selector, NCAR_NetCDF_RAF.create_coords, _create_coordinates_list, _create_time_coord, _create_fixed_value_coord, _add_aux_coordinate, find_auxiliary_coordinate", "cis/utils.py: dimensions_compatible, expand_1d_to_2d_array"]}
{"id": "C93", "title": "EarthCARE variables: the part asked for, with coordinates along the track", "statement": "Reading one EarthCARE file: a variable whose name carries the text and index (one digit) of an extra dimension (band, class, aerosol component, background) at its expected position gives exactly the part of the variable with that index of that dimension (index 0 when none is given), other variables are given whole, and every element of the result has the longitude, latitude and time of its own position along the track, if the track comes first; a variable without a stored height gets the index of its second dimension as vertical coordinate. (Several files, other positions, longer indices: C173.)", "quantifier": "all variable names, sizes, indices and contents of a file", "why_tests_cant": "names, dimension orders, shapes and indices are unbounded, and errors of position are silent whenever sizes coincide", "anchors": ["cis/data_io/products/EarthCARE.py: EarthCARE_MSI_ATL.create_data_object, _create_coord_list", "cis/utils.py: expand_1d_to_2d_array"]}
{"id": "C94", "title": "CCI products: times from the attributes, ungridded data aligned", "statement": "The time of a gridded CCI file is the middle of the interval written in its attributes, which become its bounds: a time YYYYMMDDThhmmssZ is that instant, and YYYYMM44Thhmmss the last day of that month at that time of day; other attributes stay. The ungridded products give the data of all files one after the other, each point with its own longitude, latitude and time, whether the files call them lon/lat or longitude/latitude. (The repair of bad files, and text of another form: C165.)", "quantifier": "all dates and times of day of the calendar, attribute dictionaries, numbers and contents of files", "why_tests_cant": "the dates include every month length, leap years and year ends; a wrong day is silent", "anchors": ["cis/data_io/products/CCI.py: convert_time_string_to_number, Aerosol_CCI_L3.load_single_file_callback, Cloud_CCI_L3.load_single_file_callback, CCI_L2._create_coord_list, CCI_L2.create_data_object"]}
{"id": "C95", "title": "Gridded reading: the asked variable, with its coordinates at the same positions", "statement": "Reading a variable of gridded NetCDF files by a name that one cube has gives exactly that cube, with unchanged data, dimensions and names; an unknown name is InvalidVariableError; every listed variable can be read. A pressure or geopotential field of the same files on the first dimensions of the cube becomes an auxiliary coordinate with, at every element of the cube, the value of the field at the same position. A time dimension is converted to standard time point by point (and bound by bound), with the data unchanged. (Fields on other dimensions, other time coordinates, shared names: C164.)", "quantifier": "all lists of cubes with any names, dimensions, sizes and values, any behaviour of the concatenation of cubes, any unit conversion", "why_tests_cant": "the fields may have any subset and order of dimensions of any sizes; names can coincide between cubes", "anchors": ["cis/data_io/products/gridded_NetCDF.py: NetCDF_Gridded", "cis/data_io/gridded_data.py: load_cube", "cis/time_util.py: convert_cube_time_coord_to_standard_time"]}
{"id": "C96", "title": "Saved ungridded data read back unchanged", "statement": "Ungridded data saved to NetCDF (one or several variables with their coordinates) and read back, from one file or from several files one after the other, have the same values, the same missing elements, the same coordinates with the same values, and the same names, units and history (a coordinate is named by its standard name); the file is recognised as one written by CIS. This holds for coordinates with the five standard names and no missing values, variables named otherwise, and values within the valid limits written with them. (Others: C169, C172.)", "quantifier": "all lists of coordinates and variables with any values, masks, missing values, valid limits and packing attributes under these conditions, any number of files", "why_tests_cant": "masks, missing values, packing attributes, names and several files interact; a value read back as missing or a coordinate lost is silent", "anchors": ["cis/data_io/write_netcdf.py: write_coordinate_list, add_data_to_file, __create_variable, __add_metadata", "cis/data_io/products/products.py: cis", "cis/data_io/netcdf.py: get_data, get_metadata", "cis/data_io/ungridded_data.py: UngriddedDataList.save_data, UngriddedData._post_process"]}
{"id": "C97", "title": "Commands write exactly one output, exactly when they succeed", "statement": "A command of cis (subset, aggregate, collapse, evaluate, stats with an output) ends with status 0 exactly if every datagroup it accepts could be read, the operation returned data and the result could be saved; then the output file holds that result. subset, aggregate and collapse accept exactly one datagroup, aggregate on gridded data accepts no limits, collapse accepts gridded data only, and a subset without data is an error that leaves the disk as it was. No command ever changes a file other than its output. The option missing_data_for_missing_sample has the value written, true or false in any case of letters.", "quantifier": "all commands, datagroups, data, outcomes of reading, of the operation and of saving, and states of the disk", "why_tests_cant": "The claim ranges over every combination of outcomes of the steps and every state of the disk.", "anchors": ["cis/cis_main.py: subset_cmd, aggregate_cmd, collapse_cmd, evaluate_cmd, stats_cmd, col_cmd, main", "cis/parse.py: check_boolean"]}
{"id": "C98", "title": "An interrupted save cannot pass for a complete one", "statement": "However save_data of ungridded data is interrupted (killed, or stopped by an exception), a file left behind that CIS recognises as its own holds all coordinates and, completely, the first variables saved, at most with one further, unfinished variable; those are read back as they were saved. A single variable is there completely or the file is not recognised. An undisturbed save ends with the complete file.", "quantifier": "all coordinates and data, including ones that cannot be written, all points at which the save is interrupted, and all earlier contents of the path", "why_tests_cant": "Crash points and outcomes of the library calls are not under the control of a test, and the claim is about each of them.", "anchors": ["cis/data_io/write_netcdf.py: write_coordinate_list, add_data_to_file, __create_variable", "cis/data_io/ungridded_data.py: UngriddedData.save_data, UngriddedDataList.save_data", "cis/data_io/products/products.py: cis.get_file_type_error, cis.create_coords"]}
{"id": "C99", "title": "Histograms and comparative scatter plots count and pair exactly the points that are not missing", "statement": "A histogram has the number of bins asked for, of equal width from the least to the greatest value that is not missing; the height of a bin is the number of values in it, and each value is counted once. A two-dimensional histogram shows in column i and row j the number of pairs, neither value missing, with the x value in bin i and the y value in bin j; empty cells are not drawn. A comparative scatter plot draws exactly the pairs neither of whose values is missing. Data of different sizes and unknown styles are refused. (A coordinate as axis: C174.)", "quantifier": "all data, masks, numbers of bins and styles", "why_tests_cant": "The claims are about every value relative to computed bin edges, ties on edges included, and every combination of masks.", "anchors": ["cis/plotting/histogram.py: Histogram", "cis/plotting/histogram2d.py: Histogram2D", "cis/plotting/comparativescatter.py: ComparativeScatter", "cis/plotting/plot.py: basic_plot", "cis/utils.py: apply_intersection_mask_to_two_arrays"]}
{"id": "C100", "title": "Pixels of 1 km MODIS variables get the positions between the given ones", "statement": "For a MODIS level 2 variable at 1 km, whose file gives positions every 5 km, each pixel has a latitude and longitude: the given ones at the centre pixels, and between four of them their bilinear interpolation; where a given position is missing the pixels around it have none; positions next to each other on the Earth are interpolated along the short way; positions of different files are not mixed; and every pixel has a time. Other variables have the positions of the file.", "quantifier": "all position fields of any size, with any missing positions, any number of files and any names of dimensions", "why_tests_cant": "The claim is about every pixel of a field of any size and about fields (seams of files, antimeridian, missing positions) that no sample file contains together.", "anchors": ["cis/data_io/products/MODIS.py: MODIS_L2._MODIS_L2__field_interpolate, _MODIS_L2__get_data_scale, _create_coord_list", "cis/data_io/hdf.py: read_data"]}
{"id": "C101", "title": "AERONET: every measurement keeps its value, time and position", "statement": "Reading a variable from AERONET files that have the columns of their kind, at least one of them with measurements, gives each measurement of the files exactly once, file after file and line after line, with its own value (missing if it is missing), its own time and its own position: longitude, latitude and altitude of its line in version 3, those of the header of its file in version 2, those of its line at altitude 0 for ships. A variable that one file has not is refused as invalid. A column named with units in (not nested) brackets at its end gets this name and these units, other columns their whole name and no units. (Other files and columns: C173.)", "quantifier": "all lists of complete files of all kinds, all lines and missing values, all variables but date and time", "why_tests_cant": "Alignment is a statement about all combinations of kinds of files, absent columns and empty files; the tests read single files.", "anchors": [{"file": "cis/data_io/aeronet.py", "symbols": ["load_aeronet", "load_multiple_aeronet"]}, {"file": "cis/data_io/products/products.py", "symbols": ["Aeronet.create_data_object", "Aeronet._create_coord_list"]}]}
{"id": "C102", "title": "Collapsing gridded data gives the statistics of the cells that are collapsed into one", "statement": "Collapsing gridded data over coordinates gives variables on the remaining dimensions. Each value is the statistic asked for (mean, minimum, maximum, standard deviation, number; sum if latitude is not collapsed) of the values that are not missing among the cells that differ in the collapsed dimensions only; it is missing when there are none (a standard deviation when there are fewer than two; a number never). Means are weighted by the areas of the cells exactly when latitude is collapsed, and lie between the least and the greatest value. The default gives mean, standard deviation and number; the numbers add up to the number of values of the data. Lists are collapsed variable by variable. The data given stay as they are but for bounds of their coordinates. (Sums over latitude, cells without area, bounds, unknown kernels: C170.)", "quantifier": "all shapes and numbers of dimensions, all sets of collapsed coordinates, all values and missing cells, all areas, all kernels, all lists of variables", "why_tests_cant": "The statement is about every shape, every choice of dimensions and every pattern of missing cells; the tests collapse a few small cubes with mean.", "anchors": [{"file": "cis/aggregation/gridded_collapsor.py", "symbols": ["GriddedCollapsor.__call__", "GriddedCollapsor._gridded_full_collapse"]}, {"file": "cis/aggregation/collapse_kernels.py", "symbols": ["StddevKernel", "CountKernel", "MultiKernel", "aggregation_kernels"]}, {"file": "cis/data_io/gridded_data.py", "symbols": ["GriddedData.collapsed", "GriddedDataList.collapsed", "_collapse_gridded"]}]}
{"id": "C103", "title": "Metadata name and describe what they were given", "statement": "A standard name that is given is kept, or refused if it is none; without one it is latitude, longitude, altitude, air pressure or time exactly for the names that begin with lat, lon, alt or pres or are height, air_pressure or time (in any case) and none for all other names, so that metadata always have a valid standard name or none. Units are parsed after tidying that keeps their meaning (small letters, commas and the colon after since; # for 1), and kept as text otherwise. Metadata are equal exactly when name, standard name, long name and units are. The name shown is the first of standard name, long name, name. Data with at least one point can be shown, with their least and greatest values. (Names taken for coordinates, hashes, data without points: C169, C160.)", "quantifier": "all names, standard names, unit texts, and all data and coordinates, also empty and missing ones", "why_tests_cant": "Quantifies over all texts; the guess is a rule on prefixes whose false matches no finite list of names reveals.", "anchors": [{"file": "cis/data_io/ungridded_data.py", "symbols": ["Metadata", "LazyData.name", "LazyData.update_range", "UngriddedData.summary"]}]}
{"id": "C104", "title": "A data frame has every coordinate and variable, row by row", "statement": "The data frame of ungridded data (or coordinates, or a list of variables on the same points) has one row for each point, in order: the times as index, each other coordinate as a column under its standard name, and each variable as a column under its name, with missing values as missing, for coordinates with different standard names, times that are not missing, and variables with different names that are not those of coordinates. (Others: C169, C167.)", "quantifier": "all numbers of points, all sets of coordinates and variables with different names, all missing values", "why_tests_cant": "Holds for all combinations of names; collisions (unnamed coordinates, variables named like coordinates) are what tests do not enumerate.", "anchors": [{"file": "cis/data_io/ungridded_data.py", "symbols": ["UngriddedData.as_data_frame", "UngriddedCoordinates.as_data_frame", "UngriddedDataList.as_data_frame", "_coords_as_data_frame", "_to_flat_ndarray"]}]}
{"id": "C105", "title": "MODIS level 3: each file is a slice at the middle of its stated time", "statement": "When MODIS level 3 files are read, the date and time stated in the metadata of each file under RANGEBEGINNINGDATE/TIME and RANGEENDINGDATE/TIME are found wherever they stand among the attributes; the result has one slice per file, with the values of the file on its grid, ordered by time, at the mid-point between beginning and end, with these two as bounds. (Files that do not state them in the usual form: C165.)", "quantifier": "all attribute dictionaries, keywords, values, and lists of files on one grid with different times that state them", "why_tests_cant": "The metadata are free text of unbounded length in which the keyword, END_OBJECT and quotation marks may stand anywhere; tests read one or two real files.", "anchors": ["cis/data_io/products/MODIS.py: MODIS_L3._parse_datetime, _get_start_date, _get_end_date, _create_cube", "cis/time_util.py: calculate_mid_time"]}
{"id": "C106", "title": "aggregate(): the cells asked for, and every point in its own", "statement": "data.aggregate(how, **grids) with one keyword per coordinate, as slice, as list of three (start, stop, step; None means the limit of the data; dates and timedeltas allowed) or as [partial date, step], gives for each coordinate the cells start + i*step, for coordinates not named one cell with the limits of the data; each cell has the value of the kernel for exactly the points in it, where longitudes count modulo 360 if the grid follows one of the conventions. With the default limits no point is left out if the range is more than a step and no multiple of the step. (Other longitude grids, default limits, unknown and repeated names: C162, C160, C169.)", "quantifier": "all lists of coordinates, keywords naming one coordinate each, grids of every form with positive steps, points, masks and outcomes of the sort", "why_tests_cant": "The grids combine defaults, dates, conventions of longitude and single cells; the points that are lost are those at or beyond boundaries, which tests with round numbers do not have.", "anchors": ["cis/data_io/ungridded_data.py: _aggregate_ungridded, UngriddedData.aggregate", "cis/aggregation/ungridded_aggregator.py: UngriddedAggregator", "cis/collocation/col_implementations.py: _find_longitude_range, _fix_longitude_range", "cis/data_io/hyperpoint_view.py: UngriddedHyperPointView.set_longitude_range"]}
{"id": "C107", "title": "Variables listed for satellite files can be read on their coordinates", "statement": "For MODIS, CALIOP and CloudSat files the variables offered by the listing are characterised exactly; a variable on the grid of the file's coordinates in every file (MODIS level 2: the shape of the latitudes; CALIOP: profiles by altitudes; CloudSat: a record per profile, or the shape of the heights) is listed, can be read from all the files, and data and coordinates read have one shape; for the other products exactly the variables with valid dimensions are listed. (Other variables: C173.)", "quantifier": "all lists of files with any data sets, vdata, shapes and dimension names; all variable names", "why_tests_cant": "The listing compares shapes across an unbounded number of files and variables; tests use one complete sample file per product.", "anchors": ["cis/data_io/products/AProduct.py:AProduct.get_variable_names", "cis/data_io/products/MODIS.py:MODIS_L2.get_variable_names", "cis/data_io/products/MODIS.py:MODIS_L3.get_variable_names", "cis/data_io/products/caliop.py:abstract_Caliop.get_variable_names", "cis/data_io/products/cloudsat.py:CloudSat.get_variable_names"]}
{"id": "C108", "title": "Setting the longitude range of several gridded variables keeps every value at its longitude", "statement": "After set_longitude_range on a list of gridded variables, and within collocation of a list of gridded variables, each variable that shares its longitude coordinate with no other has its longitudes within the range and increasing, and every value (with its bounds) at the longitude it had, up to whole turns; variables not in the list that share with none of it are unchanged. (Shared coordinates: C168.)", "quantifier": "all lists of variables (with repetitions) that do not share longitude coordinates, all longitudes, ranges and data", "why_tests_cant": "Whether two variables share one coordinate object depends on how they were made; tests read each variable from a file or rotate one variable.", "anchors": ["cis/data_io/common_data.py: CommonDataList.set_longitude_range", "cis/data_io/gridded_data.py: GriddedData.set_longitude_range, make_new_with_same_coordinates", "cis/collocation/col_implementations.py: GriddedCollocator.collocate, _create_collocated_cube, _fix_longitude_range"]}
{"id": "C109", "title": "File names of data and of histories are those of the data", "statement": "data.filenames of a data object lists the files it was read from or that were assigned to it; adding file names to variables that have a list of their own adds them, once, to these variables and to no other data; the histories of collocated and aggregated data name the files of their inputs. (Shared lists, and collapsed data: C168.)", "quantifier": "all histories of reading, making, assigning and adding file names in which names are added to variables with their own list", "why_tests_cant": "Whether data share a list of names depends on how each was made and on what was done before in the same program; single-call tests start with empty lists.", "anchors": ["cis/data_io/common_data.py: CommonData.filenames, CommonDataList.filenames", "cis/data_io/data_reader.py: DataReader.read_data_list", "cis/collocation/col.py: collocate", "cis/data_io/ungridded_data.py: _aggregate_ungridded", "cis/data_io/gridded_data.py: _collapse_gridded"]}
{"id": "C110", "title": "Conversions of time coordinates keep the instants", "statement": "Converting a time coordinate to standard time gives, for units '<unit> since <reference>', for date-time objects, for a plain unit with the time stamp of the file, for Julian dates and for seconds after a reference at midnight, the same instants as numbers of days after 1600-01-01; it fails exactly if values and units do not say instants; repeated conversions, conversions to date-times and back change no instant. (Julian dates that are no Julian dates, converting twice to date-times: C165.)", "quantifier": "all values, units, references and time stamps; all histories of conversions, failed ones included", "why_tests_cant": "The conversions act in place on values together with units; whether a history of them keeps the instants depends on every combination of units and value types.", "anchors": ["cis/data_io/Coord.py: Coord.convert_to_std_time, convert_julian_to_std_time, convert_TAI_time_to_std_time, convert_datetime_to_standard_time, convert_standard_time_to_datetime", "cis/time_util.py"]}
{"id": "C111", "title": "Values of command line arguments are read as written", "statement": "Contour levels written in brackets, attributes for the output, dimensions to collapse (one by one, or in one argument with commas), the two variables of a comparison (without wildcards) and the kernel name given on the command line are used exactly as written, and what exists is not refused. (Other ways of writing: C166.)", "quantifier": "all texts of the arguments, all lists of keys and values, all lists of variables including patterns, all kernel names and kinds of data", "why_tests_cant": "The texts are unbounded, and the claim is an equivalence between what is accepted and what can be used later.", "anchors": ["cis/parse.py:convert_to_list_of_floats", "cis/parse.py:_create_attributes_dictionary", "cis/parse.py:validate_collapse_args", "cis/parse.py:validate_stats_args", "cis/parse.py:check_aggregate_kernel", "cis/data_io/gridded_data.py:_collapse_gridded", "cis/collocation/col_framework.py:get_kernel"]}
{"id": "C112", "title": "Operations on lists of gridded variables reach every variable once or change nothing", "statement": "An operation on a list of different gridded variables (adding or removing a coordinate, transposing) succeeds exactly if it succeeds for every variable, and is then applied exactly once to every variable of the list and to nothing else; operations that make new variables (extract, intersection, interpolate) give exactly those of the variables; for variables on the same grid extract and intersection give None exactly if nothing is left. (Failures, repeated variables, different grids: C171.)", "quantifier": "all lists of variables, including repeated objects, all operations and all points of failure", "why_tests_cant": "Failure may happen at any position of a list of any length, and objects may be shared.", "anchors": ["cis/data_io/gridded_data.py:GriddedDataList.add_aux_coord", "cis/data_io/gridded_data.py:GriddedDataList.remove_coord", "cis/data_io/gridded_data.py:GriddedDataList.transpose", "cis/data_io/gridded_data.py:GriddedDataList.extract", "cis/data_io/gridded_data.py:GriddedDataList.intersection", "cis/data_io/gridded_data.py:GriddedDataList.interpolate"]}
{"id": "C113", "title": "Collocation leaves what it is given as it was", "statement": "Collocating data onto a sample, with any history of collocations with shared objects, failing ones included, changes nothing of them but their longitudes, and these by whole turns only; repeating a collocation, or collocating other data onto the same sample, gives the same as doing it first; for computations that do not distinguish longitudes by whole turns the result never depends on the history; gridded samples keep their points and the bounds they have. (Changed longitudes, new bounds, histories: C168.)", "quantifier": "all histories of collocations (successful or failing) with shared objects and coordinates, all samples and data", "why_tests_cant": "Histories are unbounded, objects share coordinates in arbitrary ways, and each step may fail half-way.", "anchors": ["cis/collocation/col_implementations.py:_fix_longitude_range", "cis/collocation/col_implementations.py:GeneralUngriddedCollocator.collocate", "cis/collocation/col_implementations.py:GeneralGriddedCollocator.collocate", "cis/collocation/col_implementations.py:DummyCollocator.collocate", "cis/collocation/col.py:collocate", "cis/data_io/ungridded_data.py:UngriddedData.set_longitude_range"]}
{"id": "C114", "title": "Errors of products are reported with product and cause", "statement": "If reading data with a product succeeds the caller gets exactly what the product made; if the product raises an exception with arguments the user is told which product failed, the kind of the exception and its message. The file format of a list of files is that of the first file and is given exactly if the coordinates of all of them can be read. Files for which one product is chosen are read by this product. `cis info` prints the description of every requested variable, in order, up to the first that cannot be read. (Exceptions without arguments, lack of memory, reasons of format errors, mixed files, patterns: C171.)", "quantifier": "every set of products, list of files, requested variable or list of variables, chosen product, and every result or exception of the product's methods", "why_tests_cant": "Tests raise one or two exceptions with messages; which classes of exceptions lose their message, and what happens with a mixture of files, needs a statement over all exceptions and lists.", "anchors": ["cis/data_io/products/AProduct.py: get_data, get_coordinates, get_variables, get_file_format, ProductPluginException", "cis/exceptions.py: FileFormatError, UserPrintableException", "cis/cis_main.py: __error_occurred, main", "cis/info.py: info"]}
{"id": "C115", "title": "Points of text files", "statement": "Reading text files of at least two points each gives, for every line with five comma separated fields (latitude, longitude, altitude, time, value), one point with these coordinates (time in standard time) and value, of all files in order; empty lines and comments do not matter; a point without one of its coordinates is left out, a missing value is masked; data and coordinates read from the same files have the same points. A line with a wrong number of fields is an error that names the file. (Single points, fields that are no numbers or times: C160, C167, C165.)", "quantifier": "every list of files, and every list of lines, fields and comments in them", "why_tests_cant": "Tests read a few sample files; that no point is lost or shifted, and which malformed lines are silently accepted, needs a statement about all files.", "anchors": ["cis/data_io/products/products.py: ASCII_Hyperpoints", "cis/utils.py: concatenate", "cis/data_io/ungridded_data.py: UngriddedData._post_process, UngriddedCoordinates._post_process"]}
{"id": "C116", "title": "Assigning points through views", "statement": "Assigning a point to a position of a view of ungridded data puts the point there (it is read back as assigned), changes no other point, and any sequence of assignments acts as on a list of points; on gridded data the value of the cell is replaced and nothing else; positions outside are an error; what is assigned through one view is seen in all later views, and in the data if their array is contiguous. (Failed assignments, missing coordinates, coordinates of gridded points, other arrays: C171, C167, C168.)", "quantifier": "every view of ungridded or gridded data, every position, point and value, and every history of assignments", "why_tests_cant": "Tests set one or two points of small contiguous arrays; aliasing, failed assignments and histories need an invariant.", "anchors": ["cis/data_io/hyperpoint_view.py: UngriddedHyperPointView.__setitem__, GriddedHyperPointView.__setitem__", "cis/data_io/ungridded_data.py: LazyData.data_flattened, UngriddedData.get_all_points"]}
{"id": "C117", "title": "Copies, parts and results of ungridded data are objects of their own", "statement": "A copy of an ungridded data object and a part of it taken by indexing are objects of their own: whatever is done to one of them (writing values, changing metadata, adding attributes, copying and indexing again), in any order, changes no other, neither its data nor its coordinates nor its metadata; the metadata of a part say its shape; a copy has the values, coordinates and metadata of its source. The values of results of evaluate are their own as well. (Attributes of copies, coordinates of results: C168.)", "quantifier": "every set of objects, every history of copying, indexing, writing, changing metadata and adding attributes", "why_tests_cant": "Aliasing shows only when a particular later write hits a shared array; tests compare a fresh copy with its source.", "anchors": ["cis/data_io/ungridded_data.py: UngriddedData.copy, __getitem__, make_new_with_same_coordinates, _post_process", "cis/data_io/Coord.py: Coord.copy, CoordList.__getitem__", "cis/evaluate.py: evaluate"]}
{"id": "C118", "title": "Files read together", "statement": "Gridded files of consecutive times (NetCDF, HadGEM, CCI) can be read together if they agree in names, units, coordinates and all attributes but those that the product removes, have the attributes it needs, do not overlap and have all one time or all more; whenever reading succeeds the result has every field of every file exactly once, in the order of time; a variable is found, and gets its name, in several files as in one; gridded data keep their standard name and units exactly if these are valid. (Other histories and attributes: C173.)", "quantifier": "every number of files, all attributes, times and fields; all names; all arguments of the constructor", "why_tests_cant": "Tests read one or two files made by one program; which combinations can be merged and in which order the fields come needs all file sets.", "anchors": ["cis/data_io/gridded_data.py: load_cube, GriddedData.__init__", "cis/data_io/products/HadGEM.py: HadGEM_CONVSH.load_multiple_files_callback, HadGEM_PP", "cis/data_io/products/CCI.py: load_multiple_files_callback", "cis/data_io/products/gridded_NetCDF.py: NetCDF_Gridded._create_cube"]}
{"id": "C119", "title": "Regression and rank correlation of the statistics", "statement": "The statistics command reports the gradient and the intercept of the line with the least squared distances, over exactly the points that are missing in neither variable (as many as it reports), whenever the first variable is not constant over them; the r-value lies between -1 and 1, has the sign of the gradient, and its square is the part of the spread that the line explains; the standard error belongs to that line. The rank correlation lies between -1 and 1, is 1 for variables in the same order, and does not change under strictly increasing functions of either variable. Exchanging the variables leaves both correlations.", "quantifier": "all pairs of masked arrays of any size, all strictly increasing functions, all lines", "why_tests_cant": "Optimality of a line and invariance under all monotone functions quantify over infinitely many alternatives.", "anchors": ["cis/stats.py: StatsAnalyzer.linear_regression, StatsAnalyzer.spearmans_rank"]}
{"id": "C120", "title": "Relative differences use the points that are counted", "statement": "The mean and the standard deviation of the relative difference (data2 - data1)/data1 are over all points missing in neither variable, the number of which is reported, if the first variable is zero at none of them. (Zeros: C161.)", "quantifier": "all pairs of masked arrays whose first is not zero at the points used", "why_tests_cant": "Zeros in the reference are rare in test data.", "anchors": ["cis/stats.py: StatsAnalyzer.rel_mean, StatsAnalyzer.rel_stddev"]}
{"id": "C121", "title": "Time axes show the time of the data", "statement": "On a line or scatter plot against time, with a matplotlib that counts days from 1970, the axis says at the place of each point the time of the point, points are drawn in the order and at the distances of their times, limits given as dates include exactly the points within them, and the labels of different ticks at whole seconds differ (an axis of more than five days says dates, which cis reads back; one of less than a day the time of day; one between both). (Other plots, older libraries, durations as steps: C174.)", "quantifier": "all times of the Gregorian calendar in all units, all limits and ticks", "why_tests_cant": "Depends on epochs, units and the version of matplotlib; images are compared, if at all, for a few plots.", "anchors": ["cis/plotting/genericplot.py: GenericPlot.__init__, Generic2DPlot.unpack_data_items", "cis/plotting/plot.py: set_x_axis_as_time", "cis/plotting/formatted_plot.py: apply_axis_limits"]}
{"id": "C122", "title": "Limits of maps and of axes with a step", "statement": "A map shows exactly the longitudes and latitudes between the limits given within [-180, 180] or [0, 360]; the whole globe is shown if the data span more than 4/5 of it and no limits are given; limits not given stay those of the data for data with negative longitudes; a step that divides the range puts ticks without changing the limits; ticks of maps are valid; the background does not change the limits. (Other data and steps: C174.)", "quantifier": "all limits, steps, data ranges and central longitudes", "why_tests_cant": "Which map is drawn is not tested beyond comparing images; it depends on the sign of longitudes and the edge of the map.", "anchors": ["cis/plotting/formatted_plot.py: apply_map_axis_limits, apply_axis_limits", "cis/plotting/plot.py: get_best_map_ticks, drawbluemarble", "cis/utils.py: no_autoscale"]}
{"id": "C123", "title": "Commands and global options: verbosity and forced overwriting have their documented effect", "statement": "Every accepted name of a command, also an alias, runs that command. The options -v, -q and --force-overwrite placed after the command have their documented effect: quiet shows errors only, the default shows warnings, -v and -vv show more, -v and -q exclude each other, and with --force-overwrite no question is asked. (Before the command, more -v, later commands: C166.)", "quantifier": "all names, all sequences of flags after the command, all levels of messages", "why_tests_cant": "All placements and numbers of flags, and all previous commands.", "anchors": ["cis/parse.py: initialise_top_parser, AliasedSubParsersAction, parse_args", "cis/cis_main.py: commands, parse_and_run_arguments", "cis/logging.conf"]}
{"id": "C124", "title": "Datagroups of every command are read as written", "statement": "A datagroup written as variables:files[:options] (files only for info and for the sample of a collocation), with fields that do not end in a backslash and options with different keys, is accepted exactly if it has the right number of fields, every field passes its check and every option is one of the command and has a valid value; then it holds exactly the variables, files and option values written. If the product is the only option it is taken as written. (Checking that product, and the option nocolourbar: C166.)", "quantifier": "all datagroups: all names, lists of files, options and values, all kinds of command", "why_tests_cant": "All texts and all combinations of options.", "anchors": ["cis/parse.py: parse_colon_and_comma_separated_arguments, get_basic_datagroups, get_aggregate_datagroups, get_col_samplegroup, get_plot_datagroups, get_eval_datagroups, validate_info_args, expand_file_list, check_product, check_color, check_boolean, parse_float, parse_int, check_plot_type"]}
{"id": "C125", "title": "HDF4 handles: files are closed and failures reported, and vdata have the metadata of their data", "statement": "However many objects there are for variables of HDF4 files and in whatever order they are read, every call gives what the file has for it or an error, and succeeds exactly if none of the calls of the HDF library it makes fails. Whatever fails, everything that a data set opened is closed again as far as the library lets it; so it is for vdata that are read without error. The error reported by the first call on an object is that of the call that failed first. A value of a vdata is missing exactly if it is a missing value; the shape in the metadata is the shape of the data if records are single values; every attribute is in the metadata exactly once. (Later errors, listing and vdata with errors, other records: C171.)", "quantifier": "all numbers of objects, all histories of calls, all points at which calls of the library fail; all vdata and attributes", "why_tests_cant": "The points at which a library call fails, and the histories of calls on one object, are unbounded.", "anchors": ["cis/data_io/hdf_sd.py: HDF_SDS, read, get_hdf_SD_file_variables, get_metadata", "cis/data_io/hdf_vd.py: read, get_data, get_metadata, get_hdf_VD_file_variables, _get_attribute_value, _pop_attribute_value", "cis/utils.py: create_masked_array_for_missing_values"]}
{"id": "C126", "title": "Points beyond the range of a Taylor diagram are marked", "statement": "On a Taylor diagram every dataset is drawn once, in order. A dataset whose correlation, standard deviation or bias is beyond the range shown (extend, gammamax, stdbiasmax) is marked so in its label, and no other is; points within the range are drawn at their statistics, and with fold every point is drawn within the range. If no range is given, nor a greatest bias, all points are within it. With bias=size, and biases that are not all zero, larger biases have larger markers, from a quarter to twice the item width, and the marker tells the sign; the diagram can be drawn if there are two datasets with biases and no or three markers. (Other options: C174.)", "quantifier": "all lists of datasets with any correlations, standard deviations and biases, also missing ones, and all combinations of the options", "why_tests_cant": "the options interact (automatic limits leave out datasets that other limits exclude), which only particular combinations of options and statistics show", "anchors": ["cis/plotting/taylor.py:Taylor.__init__", "cis/plotting/taylor.py:Taylor.__call__", "cis/plotting/plot.py:taylor_plot"]}
{"id": "C127", "title": "Attributes of ungridded data survive saving and reading", "statement": "Every attribute of a saved variable has the value the user gave it (add_attributes), else the value the data themselves have (standard name, units, long name, missing value, calendar, history), else the value it had in the file that was read; nothing else is written. The last of any sequence of add_attributes/remove_attribute on a name decides. When saving succeeds is characterised exactly; reading keeps every attribute it does not interpret, and from the second file on saving and reading any number of times changes nothing (if the unit library reads back what it prints). (Calendars, removed, invalid and absent attributes: C172.)", "quantifier": "all data, all attribute names and values, all sequences of additions and removals, all numbers of save/read cycles", "why_tests_cant": "Tests save one variable with a fixed set of attributes once; precedence and stability must hold for all names and any number of cycles.", "anchors": ["cis/data_io/write_netcdf.py:__add_metadata", "cis/data_io/write_netcdf.py:__get_missing_value", "cis/data_io/netcdf.py:get_metadata", "cis/data_io/netcdf.py:find_missing_value", "cis/data_io/ungridded_data.py:LazyData.add_attributes", "cis/data_io/ungridded_data.py:LazyData.remove_attribute"]}
{"id": "C128", "title": "Attributes of gridded data: added, removed, saved and loaded", "statement": "An attribute of gridded data has the value the last add_attributes, remove_attribute or assignment gave it; names and units that are valid change those of the data and invalid ones are left out. Saving one variable or a list of any length and loading it gives each its own attributes back; those added to a single variable are on the variable and not on the file.", "quantifier": "all attribute names and values, all sequences of operations, lists of any length", "why_tests_cant": "Tests add one attribute and look at one file; the order of operations, the reserved names and lists with different attributes are unbounded.", "anchors": ["cis/data_io/gridded_data.py:GriddedData.add_attributes", "cis/data_io/gridded_data.py:GriddedData.remove_attribute", "cis/data_io/gridded_data.py:GriddedData.save_data", "cis/data_io/gridded_data.py:GriddedDataList.save_data"]}
{"id": "C129", "title": "Subsetting in steps", "statement": "Giving all limits at once or one after the other, in any order and distributed in any way over any number of requests, in the longitude convention of the data, gives the same subset of ungridded data: exactly the points inside all the limits, in order, or nothing if there is none. Limits in any convention may be given before or after limits on other coordinates if all longitudes are in one convention and none is 180. (Other longitudes: C162.)", "quantifier": "every ungridded data set, every sequence of requests with closed limits on any of its coordinates", "why_tests_cant": "Tests subset once; the claim ranges over all sequences of requests and their orders, and depends on a longitude conversion decided from the data that are left after each step.", "anchors": ["cis/subsetting/subset.py:subset", "cis/subsetting/subset.py:UngriddedSubsetConstraint", "cis/subsetting/subset.py:_create_data_for_subset"]}
{"id": "C130", "title": "Collocation is local", "statement": "The collocated value of a sample point is determined by that point and the valid data within the separations around it: collocating onto part of the sample gives the corresponding part of the result, the order of the data does not matter, data beyond the separations do not matter, and larger separations never lose a value, nor decrease the maximum or the number of points, nor increase the minimum. This holds without a horizontal separation, and with one if sample and data are near each other within a quarter of one hemisphere. (Elsewhere: C163.)", "quantifier": "all samples, data sets, separations and kernels under this condition", "why_tests_cant": "It compares the results of two collocations for arbitrary pairs of inputs; tests look at single collocations.", "anchors": ["cis/collocation/col_implementations.py:GeneralUngriddedCollocator.collocate", "cis/collocation/col_implementations.py:SepConstraintKdtree", "cis/collocation/kdtree.py:HaversineDistanceKDTree.query_ball_tree"]}
{"id": "C131", "title": "Aggregation composes", "statement": "Aggregating ungridded data with at least one point onto a grid depends only on which valid points lie in which cell: the order of the points, masked points and points outside the grid do not matter; aggregating two data sets together gives in each cell the combination of their separate results (sums and numbers add, maxima and minima combine); and aggregating onto a grid a whole number of times coarser, whose steps divide the span, combines the results of the finer grid's cells. (No points: C160; other steps: C161.)", "quantifier": "all data sets, orders, masks, grids with any number of dimensions, coarsening factors, and every kernel that does not depend on the order of its values", "why_tests_cant": "It relates the results of two or three aggregations of arbitrary data; tests look at single aggregations onto small grids.", "anchors": ["cis/aggregation/ungridded_aggregator.py:UngriddedAggregator.aggregate", "cis/collocation/col_implementations.py:GeneralGriddedCollocator", "cis/collocation/col_implementations.py:BinnedCubeCellOnlyConstraint"]}
{"id": "C132", "title": "Wrapping of longitudes in double precision", "statement": "Putting longitudes into a range (fix_longitude_range, set_longitude_range) gives numbers of double precision inside the range [start, start+360), each a whole number of turns from the given longitude up to 2^-42 degrees; the order of longitudes already in the range is kept except for those within 2^-42 of its end; repeating the operation changes nothing from the second time on (from the first for longitudes not below the range). (Exactly: C177.)", "quantifier": "all longitudes of double precision (for the distance: within two turns of the range), both ranges that cis uses, every way to round to a nearest number", "why_tests_cant": "Every statement is about all numbers of double precision; the failures need particular last bits that no sample of test values is likely to have, and the guarantee of a distance from which results are right cannot come from samples.", "anchors": [{"file": "cis/utils.py", "symbols": ["fix_longitude_range"]}, {"file": "cis/data_io/ungridded_data.py", "symbols": ["set_longitude_range"]}]}
{"id": "C133", "title": "Cells of an aggregation grid in double precision", "statement": "An aggregation with limits [start, end, step] has, unless the number of steps between them is within 2^-27 of a whole number, as many cells as steps fit into the range (rounded up), and never one more or less than one off; the middles and bounds of the cells are those of the exact grid up to (5i+10) 2^-30 steps, and a point that is inside a cell by more than (5i+15) 2^-30 steps is counted there and nowhere else. (Exactly: C177.)", "quantifier": "all starts, ends and steps of double precision with start <= end, a positive step and sizes for which fewer than 2^20 or so steps fit, all points, every way to round to a nearest number", "why_tests_cant": "Every statement is about all numbers of double precision; the failures need particular last bits that no sample of test values is likely to have, and the guarantee of a distance from which results are right cannot come from samples.", "anchors": [{"file": "cis/aggregation/ungridded_aggregator.py", "symbols": ["aggregation_grid_array", "_make_partially_collapsed_coord"]}, {"file": "cis/collocation/data_index.py", "symbols": ["GridCellBinIndexInSlices.index_data"]}]}
{"id": "C134", "title": "Separations in double precision", "statement": "A separation constraint in altitude or pressure, evaluated in double precision, never accepts a point that is not strictly within the separation, and accepts every point that is within it by more than a relative 2^-53; the nearest point chosen is nearest up to a relative 2^-51, and is one of the points. (Exactly: C177.)", "quantifier": "all altitudes, (positive) pressures, separations and lists of points of double precision, every way to round to a nearest number", "why_tests_cant": "Every statement is about all numbers of double precision; the failures need particular last bits that no sample of test values is likely to have, and the guarantee of a distance from which results are right cannot come from samples.", "anchors": [{"file": "cis/collocation/col_implementations.py", "symbols": ["SepConstraint.alt_constraint", "SepConstraint.pres_constraint", "nn_altitude"]}]}
{"id": "C135", "title": "Means in double precision", "statement": "The mean computed by the kernels differs from the exact mean by at most (n+1) 2^-52 times the mean magnitude of the values, in whatever order the library adds them; it is not negative for values that are not; the mean of one value is that value.", "quantifier": "all non-empty lists of fewer than 2^50 values of double precision, every order of summation, every way to round to a nearest number", "why_tests_cant": "Every statement is about all numbers of double precision; the failures need particular last bits that no sample of test values is likely to have, and the guarantee of a distance from which results are right cannot come from samples.", "anchors": [{"file": "cis/collocation/col_implementations.py", "symbols": ["mean", "moments"]}, {"file": "cis/aggregation/collapse_kernels.py", "symbols": ["MultiKernel"]}]}
{"id": "C136", "title": "Times in double precision", "statement": "Converting seconds after a reference at midnight to standard time gives a time that stands for the instant to within three microseconds; the order of measurements is kept and measurements more than six microseconds apart keep different times, also across references; a subset by time limits is right for points more than three microseconds from its limits; whole days are exact. (Exactly: C177.)", "quantifier": "all seconds and references within about 700 years of 1600, every way to round to a nearest number", "why_tests_cant": "Every statement is about all numbers of double precision; the failures need particular last bits that no sample of test values is likely to have, and the guarantee of a distance from which results are right cannot come from samples.", "anchors": [{"file": "cis/time_util.py", "symbols": ["convert_sec_since_to_std_time"]}]}
{"id": "C137", "title": "The ranges shown are those of the current values", "statement": "The summary of ungridded data shows, for the data and for each coordinate, the least and the greatest of the values it has now (times as the earliest and latest date), whatever was done to the object before: conversion of units, arithmetic in place, assignment of new values, other longitude ranges, earlier summaries.", "quantifier": "all data and coordinates, also with missing values, and all histories of operations", "why_tests_cant": "The failure needs a history (show after a change in place); the guarantee quantifies over all histories and values.", "anchors": [{"file": "cis/data_io/ungridded_data.py", "symbols": ["LazyData.update_range", "UngriddedData._post_process", "UngriddedData.summary", "Metadata.summary", "LazyData.convert_units"]}]}
{"id": "C138", "title": "Interpolation on a grid in double precision", "statement": "Collocating gridded data onto points with the methods `lin` and `nn`, in double precision: a point is masked exactly when it lies outside the grid in some dimension. Inside, `lin` gives the exact multilinear value up to 2^n (6n+2) 2^-52 M, where n is the number of dimensions (at most 50) and M bounds the magnitude of the values at the corners of the cell - however close the nodes are to each other - so also a result between the least and the greatest of these values up to that bound; the result is not negative if no corner value is, and at a node of the grid it is exactly the value there. `nn` takes, on each axis, a node than which no other is nearer by more than one part in 2^48, and returns the value there unrounded. (What rounding takes away, as counterexamples: a constant field is not interpolated to the constant, and `nn` may take the farther of two nodes.)", "quantifier": "all ways to round to a nearest double, all grids with increasing axes of two or more nodes, all points, all values", "why_tests_cant": "Rounding errors depend on all bits of all inputs; tests compare with tolerances on a few grids.", "anchors": ["cis/collocation/gridded_interpolation.py: _RegularGridInterpolator._evaluate_linear, _evaluate_nearest, _find_indices, __call__"]}
{"id": "C139", "title": "Iteration of non-masked data skips exactly the masked elements", "statement": "index_iterator_for_non_masked_data(shape, points) yields exactly the indices of the elements of `points` that are not masked, in row-major order.", "quantifier": "all shapes of any rank with any non-negative dimension lengths, all masks", "why_tests_cant": "A mask of any shape may hide any element.", "anchors": ["cis/utils.py: index_iterator, index_iterator_nditer, index_iterator_for_non_masked_data"]}
{"id": "C140", "title": "Limits and a shape may be given in any order", "statement": "Limits on longitude or latitude given together with a shape hold as well as the shape, whichever is given first.", "quantifier": "all data, limits and coordinate sets", "why_tests_cant": "The order of keywords interacts with values of limits and shape.", "anchors": ["cis/subsetting/subset.py: UngriddedSubsetConstraint.constrain, subset"]}
{"id": "C141", "title": "Coordinates and unknown names within groups", "statement": "Coordinate variables inside groups are excluded like those of the root when coordinates are excluded from the listing, and a name in a group that does not exist is reported as an invalid variable.", "quantifier": "all trees of groups of any depth and all names", "why_tests_cant": "Group trees are unbounded.", "anchors": ["cis/data_io/netcdf.py:get_netcdf_file_variables", "cis/data_io/netcdf.py:read", "cis/data_io/netcdf.py:find_netcdf_variables", "cis/data_io/netcdf.py:remove_variables_with_non_spatiotemporal_dimensions"]}
{"id": "C142", "title": "Longitude limits are checked under every name", "statement": "Longitude limits are checked alike under the names x and longitude and with one or two limits, with a message when they are refused; only the name `shape` stands for a shape.", "quantifier": "all argument strings, names, numbers (including infinities and NaN) and any number of segments", "why_tests_cant": "Names and values combine freely.", "anchors": ["cis/parse.py:get_subset_limits", "cis/parse.py:parse_float", "cis/parse_datetime.py:parse_as_number_or_datetime"]}
{"id": "C143", "title": "Malformed aggregation grids are refused", "statement": "A segment of an aggregation argument that is neither a bare name nor `dim=[...]` with numbers is refused rather than silently treated as something else.", "quantifier": "all argument strings, names and values", "why_tests_cant": "All strings.", "anchors": ["cis/parse.py:get_aggregate_grid"]}
{"id": "C144", "title": "Units of distances that CIS does not know are refused", "statement": "A separation with a unit other than m and km is refused, whatever characters the unit has.", "quantifier": "all numerals (sign, digits, decimal point, exponent) and all units", "why_tests_cant": "All strings.", "anchors": ["cis/utils.py:parse_distance_with_units_to_float_km", "cis/utils.py:parse_distance_with_units_to_float_m", "cis/utils.py:split_into_float_and_units"]}
{"id": "C145", "title": "Failing commands leave the output alone, and options are checked", "statement": "A command that fails leaves an earlier output file as it was; an option that is neither true nor false is refused.", "quantifier": "all commands, datagroups, data, outcomes of reading, of the operation and of saving, and states of the disk", "why_tests_cant": "Failures may occur at any step.", "anchors": ["cis/cis_main.py: subset_cmd, aggregate_cmd, collapse_cmd, evaluate_cmd, stats_cmd, col_cmd, main", "cis/parse.py: check_boolean"]}
{"id": "C146", "title": "An interrupted save loses neither old nor new data silently", "statement": "Interrupted at any point, save_data leaves at the path what was there before or the complete file; a variable that was not completely written cannot be read.", "quantifier": "all coordinates and data, including ones that cannot be written, all points at which the save is interrupted, and all earlier contents of the path", "why_tests_cant": "Every crash point.", "anchors": ["cis/data_io/write_netcdf.py: write_coordinate_list, add_data_to_file, __create_variable", "cis/data_io/ungridded_data.py: UngriddedData.save_data, UngriddedDataList.save_data", "cis/data_io/products/products.py: cis.get_file_type_error, cis.create_coords"]}
{"id": "C147", "title": "Adding and removing attributes are inverse, for lists as for single variables", "statement": "Nothing the user adds as an attribute is dropped, removing undoes adding, and attributes added to the variables of a list are written like those of single variables.", "quantifier": "all attribute names and values, all sequences of operations, lists of any length", "why_tests_cant": "All names, values and histories.", "anchors": ["cis/data_io/gridded_data.py:GriddedData.add_attributes", "cis/data_io/gridded_data.py:GriddedData.remove_attribute", "cis/data_io/gridded_data.py:GriddedData.save_data", "cis/data_io/gridded_data.py:GriddedDataList.save_data"]}
{"id": "C148", "title": "Collapsing in steps", "statement": "Collapsing gridded data over some coordinates and then the result over others with min or max gives the same variable (name, shape, every value) as collapsing over all of them at once, with latitude among them or not; so does sum when latitude is not among them, and mean when no value is missing and latitude is not among them, or is among those collapsed first and each column of cells collapsed first has the same area, or is among those collapsed last, cells collapsed first into one have the same area and that one has the area of all of them. The order in which the coordinates are named never makes a difference.", "quantifier": "all gridded data of any number of dimensions and any shape, coordinates of any number of dimensions, values missing or not, all divisions of the coordinates into two steps, all permutations of the names", "why_tests_cant": "Shapes, values and divisions are unbounded.", "anchors": ["cis/data_io/gridded_data.py:GriddedData.collapsed", "cis/aggregation/gridded_collapsor.py:_gridded_full_collapse"]}
{"id": "C149", "title": "Collapsing in steps for means", "statement": "The mean over some coordinates and then over others is the mean over all of them at once.", "quantifier": "all gridded data, all divisions of the coordinates into two steps", "why_tests_cant": "Depends on missing values and on the widths of cells.", "anchors": ["cis/data_io/gridded_data.py:GriddedData.collapsed", "cis/aggregation/gridded_collapsor.py:_gridded_full_collapse"]}
{"id": "C150", "title": "Interpolation is local", "statement": "Interpolating at a point from a part of the grid without gaps in which the point lies (for example a subset by limits) gives what interpolating from the whole grid gives: linear interpolation for data without missing values, and for data with missing values if no coordinate of the point is that of a node; nearest neighbour interpolation for all data.", "quantifier": "all grids of any number of dimensions with ascending axes (circular or not) or a descending second axis, all parts without gaps, all data, points, with or without extrapolation", "why_tests_cant": "Grids, parts and points are unbounded.", "anchors": ["cis/collocation/gridded_interpolation.py:GriddedUngriddedInterpolator", "cis/collocation/gridded_interpolation.py:_RegularGridInterpolator"]}
{"id": "C151", "title": "Interpolation of data with missing values is local", "statement": "Interpolating from a part of the grid in which the point lies gives what interpolating from the whole grid gives, whatever values are missing.", "quantifier": "all grids, parts, data with missing values, points", "why_tests_cant": "Depends on which neighbours are looked at for points on nodes.", "anchors": ["cis/collocation/gridded_interpolation.py:GriddedUngriddedInterpolator", "cis/collocation/gridded_interpolation.py:_RegularGridInterpolator"]}
{"id": "C152", "title": "Data collocated onto themselves, nearest neighbour", "statement": "Collocating ungridded data onto themselves with a nearest neighbour kernel (horizontal, altitude, pressure or time) and any positive separations keeps every value, if no two points that have values agree in the coordinate the kernel looks at, wherever on the earth the points are.", "quantifier": "all data sets with at least one value, separations, nearest neighbour kernels, positions", "why_tests_cant": "Data sets, positions and tree shapes are unbounded; the search is inexact in general, so finding a point from its own place is not evident.", "anchors": ["cis/collocation/col_implementations.py:GeneralUngriddedCollocator", "cis/collocation/col_implementations.py:SepConstraintKdtree", "cis/collocation/kdtree.py:HaversineDistanceKDTree.query_ball_tree"]}
{"id": "C153", "title": "Data collocated onto themselves, statistics", "statement": "Collocating ungridded data onto themselves with mean, min, max or sum keeps every value, if no two points that have values are within the separations.", "quantifier": "all data sets, separations, positions", "why_tests_cant": "Data sets, positions and tree shapes are unbounded.", "anchors": ["cis/collocation/col_implementations.py:GeneralUngriddedCollocator", "cis/collocation/col_implementations.py:SepConstraintKdtree", "cis/collocation/kdtree.py:HaversineDistanceKDTree.query_ball_tree"]}
{"id": "C154", "title": "Gridded subsets in steps", "statement": "Subsetting gridded data in two steps: limits on some coordinates and then limits (and a shape) on others select what one subset with all of them selects, values, points and errors alike; on one coordinate that is not a longitude, a range and then another selects the common part of the two; on ascending longitudes that span less than a full turn, a range and then a range within it selects what the second range alone selects. If the first step selects nothing, so does the subset in one step.", "quantifier": "all gridded data of any number of dimensions and sizes, limits (across the meridian or not), shapes", "why_tests_cant": "Grids and limits are unbounded and longitudes are renumbered by the first step.", "anchors": ["cis/subsetting/subset.py:GriddedSubsetConstraint", "cis/data_io/gridded_data.py:GriddedData.subset"]}
{"id": "C155", "title": "Evaluation works point by point and commutes with subsetting", "statement": "An expression of names, numbers, operators and elementwise functions, evaluated on ungridded variables on the same points, has at every point the value of the expression on the values there, on the coordinates of the first variable; and evaluating it on a subset by limits gives exactly the subset of evaluating it on everything (values, coordinates, names, history), or the same error. If nothing is selected of the variables, nothing is selected of the result.", "quantifier": "all lists of ungridded variables on the same points (any number of points, dimensions and coordinates), all elementwise expressions, all limits", "why_tests_cant": "Expressions, variables, points and limits are unbounded; subsetting flattens, renumbers longitudes and shares its mask between variables.", "anchors": ["cis/evaluate.py:Calculator.evaluate", "cis/subsetting/subset.py:UngriddedSubsetConstraint.constrain", "cis/data_io/ungridded_data.py:UngriddedDataList.subset"]}
{"id": "C156", "title": "A cell of an aggregate is the statistic of the subset by its limits", "statement": "Aggregating ungridded data gives in every cell what the kernel gives for the values that are not missing of the subset by the limits of the cell (missing if that subset is empty or has only missing values), if no point lies on an upper end of the cell, which subsets contain and cells do not, and no longitude has to be converted for these limits.", "quantifier": "all ungridded data with at least one point, all kernels that do not depend on the order, all grids with positive steps, all cells, every outcome of the sort", "why_tests_cant": "Data, grids and cells are unbounded; the two operations share no code.", "anchors": ["cis/aggregation/ungridded_aggregator.py:Aggregator.aggregate", "cis/collocation/col_implementations.py:GeneralGriddedCollocator", "cis/subsetting/subset.py:UngriddedSubsetConstraint.constrain"]}
{"id": "C157", "title": "The file written by a subset has exactly the points within the limits", "statement": "Ungridded variables on common coordinates (with the five standard names, no missing coordinates, values within the limits of their metadata) are subset by limits in the longitude convention of the data and saved: the file is recognised as one of CIS, and every variable read from it has exactly the points of that variable that lie within the limits, ends included, in order, with their coordinates, values, missing values, names and units. Nothing is saved iff no point lies within the limits.", "quantifier": "all lists of variables, numbers of points, coordinates, values, packings and limits", "why_tests_cant": "The result passes through masks shared between variables, packing, fill values and the reading of coordinates by name; data and limits are unbounded.", "anchors": ["cis/data_io/ungridded_data.py:UngriddedDataList.subset", "cis/subsetting/subset.py:UngriddedSubsetConstraint.constrain", "cis/data_io/ungridded_data.py:UngriddedDataList.save_data", "cis/data_io/write_netcdf.py:add_data_to_file", "cis/data_io/products/products.py:cis"]}
{"id": "C158", "title": "The file written by a subset keeps converted longitudes", "statement": "The same when the longitudes are converted to the convention of the limits.", "quantifier": "all lists of variables, limits in either convention", "why_tests_cant": "Depends on the metadata of the coordinate.", "anchors": ["cis/data_io/ungridded_data.py:UngriddedDataList.subset", "cis/subsetting/subset.py:UngriddedSubsetConstraint.constrain", "cis/data_io/ungridded_data.py:UngriddedDataList.save_data", "cis/data_io/write_netcdf.py:add_data_to_file", "cis/data_io/products/products.py:cis"]}
{"id": "C159", "title": "Descending axes are handled like ascending ones", "statement": "Binning, aggregation and interpolation treat a grid whose coordinates decrease (latitudes from north to south, a negative step) as they treat the same grid with increasing coordinates: every point in a cell is delivered in its slice (C04) and counted in the aggregate (C40), interpolation gives the node value at a node (C18) and nearest-neighbour interpolation a nearest node (C19).", "quantifier": "all decreasing coordinates, in any dimension", "why_tests_cant": "The cases where it fails are found by considering every input, not by examples of ordinary use.", "anchors": ["cis/collocation/data_index.py: GridCellBinIndexInSlices.index_data, get_iterator", "cis/collocation/gridded_interpolation.py: _RegularGridInterpolator._find_indices, _evaluate_linear", "cis/collocation/gridded_interpolation.py: _RegularGridInterpolator._evaluate_nearest", "cis/aggregation/ungridded_aggregator.py: UngriddedAggregator.aggregate", "cis/collocation/data_index.py: GridCellBinIndexInSlices", "cis/collocation/col_implementations.py: GeneralGriddedCollocator"]}
{"id": "C160", "title": "The smallest inputs are handled like all others", "statement": "What holds for data with many points, cells and coordinates holds for the smallest ones: data without valid points or with one point, grids of one cell, axes with one node, lists of one coordinate, requests that select nothing (C04, C05, C17, C18, C38, C40, C45, C66, C68, C70, C103, C106, C115, C131).", "quantifier": "all sizes, including 0 and 1", "why_tests_cant": "The cases where it fails are found by considering every input, not by examples of ordinary use.", "anchors": ["cis/collocation/data_index.py: GridCellBinIndexInSlices.index_data, get_iterator", "cis/collocation/data_index.py: GridCellBinIndex", "cis/collocation/col_implementations.py: CubeCellConstraint, BinningCubeCellConstraint", "cis/collocation/col_implementations.py: GeneralUngriddedCollocator.collocate, SepConstraintKdtree.get_iterator", "cis/collocation/gridded_interpolation.py: _RegularGridInterpolator._find_indices, _evaluate_linear", "cis/subsetting/subset.py: subset", "cis/data_io/ungridded_data.py: UngriddedDataList.subset", "cis/aggregation/ungridded_aggregator.py: UngriddedAggregator.aggregate", "cis/collocation/data_index.py: GridCellBinIndexInSlices", "cis/collocation/col_implementations.py: GeneralGriddedCollocator", "cis/data_io/Coord.py: CoordList", "cis/data_io/common_data.py: CommonData._get_coord", "cis/data_io/Coord.py: CoordList.get_coord", "cis/data_io/ungridded_data.py: UngriddedData.from_points_array, get_all_points", "cis/data_io/hyperpoint.py: HyperPointList", "cis/data_io/ungridded_data.py: UngriddedCoordinates.size", {"file": "cis/data_io/ungridded_data.py", "symbols": ["Metadata", "LazyData.name", "LazyData.update_range", "UngriddedData.summary"]}, "cis/data_io/ungridded_data.py: _aggregate_ungridded, UngriddedData.aggregate", "cis/aggregation/ungridded_aggregator.py: UngriddedAggregator", "cis/collocation/col_implementations.py: _find_longitude_range, _fix_longitude_range", "cis/data_io/hyperpoint_view.py: UngriddedHyperPointView.set_longitude_range", "cis/data_io/products/products.py: ASCII_Hyperpoints", "cis/utils.py: concatenate", "cis/data_io/ungridded_data.py: UngriddedData._post_process, UngriddedCoordinates._post_process", "cis/aggregation/ungridded_aggregator.py:UngriddedAggregator.aggregate"]}
{"id": "C161", "title": "Zero and exact boundaries are values like all others", "statement": "A limit, separation or reference value that is zero acts as the number zero, points exactly at a separation or at the end of a range are treated alike by all ways to select them and counted where the range includes them, and ranges that are not a whole number of steps are covered without losing or adding points (C14, C55, C106, C120, C131).", "quantifier": "all numbers, including zero and those exactly on a boundary", "why_tests_cant": "The cases where it fails are found by considering every input, not by examples of ordinary use.", "anchors": ["cis/collocation/col_implementations.py: SepConstraint, SepConstraintKdtree", "cis/utils.py: calculate_histogram_bin_edges", "cis/data_io/ungridded_data.py: _aggregate_ungridded, UngriddedData.aggregate", "cis/aggregation/ungridded_aggregator.py: UngriddedAggregator", "cis/collocation/col_implementations.py: _find_longitude_range, _fix_longitude_range", "cis/data_io/hyperpoint_view.py: UngriddedHyperPointView.set_longitude_range", "cis/stats.py: StatsAnalyzer.rel_mean, StatsAnalyzer.rel_stddev", "cis/aggregation/ungridded_aggregator.py:UngriddedAggregator.aggregate", "cis/collocation/col_implementations.py:GeneralGriddedCollocator", "cis/collocation/col_implementations.py:BinnedCubeCellOnlyConstraint"]}
{"id": "C162", "title": "Longitudes are angles", "statement": "Longitude ranges of subsets, aggregations, grids and points mean the same set of meridians however limits and data are written: across 0, 180 and 360 degrees, beyond them, and in mixed conventions; and the poles belong to the grid that reaches them (C23, C37, C40, C69, C106, C129).", "quantifier": "all longitudes and limits, in any convention", "why_tests_cant": "The cases where it fails are found by considering every input, not by examples of ordinary use.", "anchors": ["cis/data_io/gridded_data.py: GriddedData.set_longitude_range", "cis/subsetting/subset.py: UngriddedSubsetConstraint._create_data_for_subset", "cis/aggregation/ungridded_aggregator.py: UngriddedAggregator.aggregate", "cis/collocation/data_index.py: GridCellBinIndexInSlices", "cis/collocation/col_implementations.py: GeneralGriddedCollocator", "cis/data_io/hyperpoint_view.py: UngriddedHyperPointView.set_longitude_range, GriddedHyperPointView.set_longitude_range", "cis/data_io/ungridded_data.py: _aggregate_ungridded, UngriddedData.aggregate", "cis/aggregation/ungridded_aggregator.py: UngriddedAggregator", "cis/collocation/col_implementations.py: _find_longitude_range, _fix_longitude_range", "cis/data_io/hyperpoint_view.py: UngriddedHyperPointView.set_longitude_range", "cis/subsetting/subset.py:subset", "cis/subsetting/subset.py:UngriddedSubsetConstraint", "cis/subsetting/subset.py:_create_data_for_subset"]}
{"id": "C163", "title": "Collocation with a horizontal separation anywhere on Earth", "statement": "Collocating with a horizontal separation, with the tree index, selects for every sample point exactly the valid data within the great-circle separation, anywhere on Earth; adding sample points or data beyond the separation changes no other value (C13, C17, C130).", "quantifier": "all samples and data sets anywhere on Earth, all separations", "why_tests_cant": "The cases where it fails are found by considering every input, not by examples of ordinary use.", "anchors": ["cis/collocation/kdtree.py: HaversineDistanceKDTree.query_ball_tree, RectangleHaversine", "cis/collocation/haversinedistancekdtreeindex.py", "cis/collocation/col_implementations.py: GeneralUngriddedCollocator.collocate, SepConstraintKdtree.get_iterator", "cis/collocation/col_implementations.py:GeneralUngriddedCollocator.collocate", "cis/collocation/col_implementations.py:SepConstraintKdtree", "cis/collocation/kdtree.py:HaversineDistanceKDTree.query_ball_tree"]}
{"id": "C164", "title": "The order of dimensions and coordinates does not matter", "statement": "Coordinates, kernels, masks of samples, hybrid heights, shapes, auxiliary fields and collapsed coordinates follow the dimensions they belong to, in whatever order the dimensions and coordinates come, with dimensions of length one, without coordinate, or replaced by a scalar coordinate (C16, C41, C53, C60, C64, C74, C83, C95).", "quantifier": "all orders, lengths and kinds of dimensions and coordinates", "why_tests_cant": "The cases where it fails are found by considering every input, not by examples of ordinary use.", "anchors": ["cis/collocation/col_implementations.py: nn_horizontal, nn_altitude, nn_pressure, nn_time", "cis/data_io/hyperpoint.py: compdist, compalt, comppres, comptime", "cis/aggregation/gridded_collapsor.py: GriddedCollapsor._calc_new_dims", "cis/data_io/hyperpoint_view.py: GriddedHyperPointView", "cis/collocation/gridded_interpolation.py: _RegularGridInterpolator.__init__, _find_vertical_index", "cis/collocation/col_implementations.py: BinnedCubeCellOnlyConstraint", "cis/collocation/col_implementations.py:GriddedCollocator._make_output_mask", "cis/utils.py:apply_mask_to_numpy_array", "cis/subsetting/subset.py:GriddedSubsetConstraint", "cis/subsetting/subset.py:_get_gridded_subset_region_indices", "cis/data_io/products/gridded_NetCDF.py: NetCDF_Gridded", "cis/data_io/gridded_data.py: load_cube", "cis/time_util.py: convert_cube_time_coord_to_standard_time"]}
{"id": "C165", "title": "Every date and time means its instant", "statement": "Dates, times and references to times written or stored in any form the formats allow stand for their instant, also with a time of day in the reference, fractions of the last second, the last month of the calendar, repeated conversions, and text of another form (also of durations, C26) is an error and not another time (C24, C27, C94, C105, C110, C115).", "quantifier": "all dates, references, units, texts and sequences of conversions", "why_tests_cant": "The cases where it fails are found by considering every input, not by examples of ordinary use.", "anchors": ["cis/time_util.py: PartialDateTime, find_last_day_of_month", "cis/time_util.py: convert_sec_since_to_std_time", "cis/data_io/products/CCI.py: convert_time_string_to_number, Aerosol_CCI_L3.load_single_file_callback, Cloud_CCI_L3.load_single_file_callback, CCI_L2._create_coord_list, CCI_L2.create_data_object", "cis/data_io/products/MODIS.py: MODIS_L3._parse_datetime, _get_start_date, _get_end_date, _create_cube", "cis/time_util.py: calculate_mid_time", "cis/data_io/Coord.py: Coord.convert_to_std_time, convert_julian_to_std_time, convert_TAI_time_to_std_time, convert_datetime_to_standard_time, convert_standard_time_to_datetime", "cis/time_util.py", "cis/data_io/products/products.py: ASCII_Hyperpoints", "cis/utils.py: concatenate", "cis/data_io/ungridded_data.py: UngriddedData._post_process, UngriddedCoordinates._post_process"]}
{"id": "C166", "title": "What is written on the command line is what is done", "statement": "Every field, option, list of arguments and flag of the command line can be written, is used exactly as written wherever it may stand, is checked, and stays without effect on later commands (C29, C30, C31, C61, C85, C111, C123, C124).", "quantifier": "all texts, all flags at all places, all sequences of commands", "why_tests_cant": "The cases where it fails are found by considering every input, not by examples of ordinary use.", "anchors": ["cis/parse.py: parse_colon_and_comma_separated_arguments", "cis/parse.py: split_outside_brackets", "cis/parse.py: multi_split", "cis/parse.py:extract_method_and_args", "cis/utils.py:parse_key_val_list", "cis/parse.py:convert_to_list_of_floats", "cis/parse.py:_create_attributes_dictionary", "cis/parse.py:validate_collapse_args", "cis/parse.py:validate_stats_args", "cis/parse.py:check_aggregate_kernel", "cis/data_io/gridded_data.py:_collapse_gridded", "cis/collocation/col_framework.py:get_kernel", "cis/parse.py: initialise_top_parser, AliasedSubParsersAction, parse_args", "cis/cis_main.py: commands, parse_and_run_arguments", "cis/logging.conf", "cis/parse.py: parse_colon_and_comma_separated_arguments, get_basic_datagroups, get_aggregate_datagroups, get_col_samplegroup, get_plot_datagroups, get_eval_datagroups, validate_info_args, expand_file_list, check_product, check_color, check_boolean, parse_float, parse_int, check_plot_type"]}
{"id": "C167", "title": "Missing values stay missing and nothing else becomes missing", "statement": "A missing value (masked, NaN in any kind of array, not given, not readable) is treated as missing by every operation, and a value that is not missing stays as it is (C18, C43, C75, C83, C96, C104, C115, C116).", "quantifier": "all masks, NaNs and types of arrays", "why_tests_cant": "The cases where it fails are found by considering every input, not by examples of ordinary use.", "anchors": ["cis/collocation/gridded_interpolation.py: _RegularGridInterpolator._find_indices, _evaluate_linear", "cis/data_io/ungridded_data.py: UngriddedData._post_process, UngriddedCoordinates._post_process", "cis/data_io/netcdf.py:get_data", "cis/data_io/netcdf.py:apply_offset_and_scaling", "cis/data_io/hdf_sd.py:get_data", "cis/data_io/products/caliop.py", "cis/subsetting/subset.py:GriddedSubsetConstraint", "cis/subsetting/subset.py:_get_gridded_subset_region_indices", "cis/data_io/write_netcdf.py: write_coordinate_list, add_data_to_file, __create_variable, __add_metadata", "cis/data_io/products/products.py: cis", "cis/data_io/netcdf.py: get_data, get_metadata", "cis/data_io/ungridded_data.py: UngriddedDataList.save_data, UngriddedData._post_process", {"file": "cis/data_io/ungridded_data.py", "symbols": ["UngriddedData.as_data_frame", "UngriddedCoordinates.as_data_frame", "UngriddedDataList.as_data_frame", "_coords_as_data_frame", "_to_flat_ndarray"]}, "cis/data_io/products/products.py: ASCII_Hyperpoints", "cis/utils.py: concatenate", "cis/data_io/hyperpoint_view.py: UngriddedHyperPointView.__setitem__, GriddedHyperPointView.__setitem__", "cis/data_io/ungridded_data.py: LazyData.data_flattened, UngriddedData.get_all_points"]}
{"id": "C168", "title": "Objects do not influence each other", "statement": "What an operation gives depends on its arguments only, and not on what was done before with the same collocator, constraint, coordinates or data; an operation changes none of its inputs and its results share nothing with them; variables of a list are treated as if each were alone (C38, C43, C44, C46, C48, C57, C72, C108, C109, C113, C116, C117).", "quantifier": "all histories of operations, all ways objects can be shared", "why_tests_cant": "The cases where it fails are found by considering every input, not by examples of ordinary use.", "anchors": ["cis/subsetting/subset.py: subset", "cis/data_io/ungridded_data.py: UngriddedDataList.subset", "cis/data_io/ungridded_data.py: UngriddedData._post_process, UngriddedCoordinates._post_process", "cis/data_io/ungridded_data.py: LazyData", "cis/data_io/Coord.py: Coord.convert_*", "cis/data_io/common_data.py: CommonDataList.append, extend, append_or_extend", "cis/evaluate.py: Calculator", "cis/collocation/col_implementations.py: SepConstraintKdtree.constrain_points, haversine_distance_kd_tree_index", "cis/collocation/col_implementations.py:GriddedUngriddedCollocator.collocate", "cis/collocation/gridded_interpolation.py:GriddedUngriddedInterpolator", "cis/data_io/common_data.py: CommonDataList.set_longitude_range", "cis/data_io/gridded_data.py: GriddedData.set_longitude_range, make_new_with_same_coordinates", "cis/collocation/col_implementations.py: GriddedCollocator.collocate, _create_collocated_cube, _fix_longitude_range", "cis/data_io/common_data.py: CommonData.filenames, CommonDataList.filenames", "cis/data_io/data_reader.py: DataReader.read_data_list", "cis/collocation/col.py: collocate", "cis/data_io/ungridded_data.py: _aggregate_ungridded", "cis/data_io/gridded_data.py: _collapse_gridded", "cis/collocation/col_implementations.py:_fix_longitude_range", "cis/collocation/col_implementations.py:GeneralUngriddedCollocator.collocate", "cis/collocation/col_implementations.py:GeneralGriddedCollocator.collocate", "cis/collocation/col_implementations.py:DummyCollocator.collocate", "cis/collocation/col.py:collocate", "cis/data_io/ungridded_data.py:UngriddedData.set_longitude_range", "cis/data_io/hyperpoint_view.py: UngriddedHyperPointView.__setitem__, GriddedHyperPointView.__setitem__"]}
{"id": "C169", "title": "Names are not confused", "statement": "Coordinates and variables are told apart by their full names: none is lost, replaced or taken for another because of a missing, equal, shortened or misleading name, when they are listed, found, copied, saved, read back, aggregated and put into tables (C45, C51, C63, C65, C79, C80, C96, C103, C104, C106).", "quantifier": "all names of coordinates and variables, also missing and equal ones", "why_tests_cant": "The cases where it fails are found by considering every input, not by examples of ordinary use.", "anchors": ["cis/data_io/Coord.py: CoordList", "cis/data_io/write_netcdf.py: __create_variable, write", "cis/collocation/col_implementations.py: make_coord_map, _find_standard_coords, GeneralGriddedCollocator.collocate", "cis/data_io/Coord.py: CoordList.copy", "cis/data_io/data_reader.py:DataReader.read_data_list", "cis/data_io/data_reader.py:DataReader._expand_wildcards", "cis/__init__.py:read_data", "cis/__init__.py:read_data_list", "cis/data_io/aeronet.py:get_aeronet_version", "cis/data_io/aeronet.py:get_aeronet_file_variables", "cis/data_io/write_netcdf.py: write_coordinate_list, add_data_to_file, __create_variable, __add_metadata", "cis/data_io/products/products.py: cis", "cis/data_io/netcdf.py: get_data, get_metadata", "cis/data_io/ungridded_data.py: UngriddedDataList.save_data, UngriddedData._post_process", {"file": "cis/data_io/ungridded_data.py", "symbols": ["Metadata", "LazyData.name", "LazyData.update_range", "UngriddedData.summary"]}, {"file": "cis/data_io/ungridded_data.py", "symbols": ["UngriddedData.as_data_frame", "UngriddedCoordinates.as_data_frame", "UngriddedDataList.as_data_frame", "_coords_as_data_frame", "_to_flat_ndarray"]}, "cis/data_io/ungridded_data.py: _aggregate_ungridded, UngriddedData.aggregate", "cis/aggregation/ungridded_aggregator.py: UngriddedAggregator", "cis/collocation/col_implementations.py: _find_longitude_range, _fix_longitude_range", "cis/data_io/hyperpoint_view.py: UngriddedHyperPointView.set_longitude_range"]}
{"id": "C170", "title": "Operations in place and collapsing keep what they should", "statement": "Operations in place act like those that make new data whatever the type of the data, and collapsing gives the documented statistic of the cells for all kernels, cells and coordinates and changes nothing of its input (C47, C102).", "quantifier": "all types of data, operations, kernels and cells", "why_tests_cant": "The cases where it fails are found by considering every input, not by examples of ordinary use.", "anchors": ["cis/maths.py", {"file": "cis/aggregation/gridded_collapsor.py", "symbols": ["GriddedCollapsor.__call__", "GriddedCollapsor._gridded_full_collapse"]}, {"file": "cis/aggregation/collapse_kernels.py", "symbols": ["StddevKernel", "CountKernel", "MultiKernel", "aggregation_kernels"]}, {"file": "cis/data_io/gridded_data.py", "symbols": ["GriddedData.collapsed", "GriddedDataList.collapsed", "_collapse_gridded"]}]}
{"id": "C171", "title": "Failures leave no trace and are reported", "statement": "An operation that fails (no memory, wrong argument, library error) leaves data and lists as they were and nothing open, and the error that is reported is the one that happened, with its message (C44, C46, C112, C114, C116, C125).", "quantifier": "all failures at all points", "why_tests_cant": "The cases where it fails are found by considering every input, not by examples of ordinary use.", "anchors": ["cis/data_io/ungridded_data.py: LazyData", "cis/data_io/Coord.py: Coord.convert_*", "cis/data_io/common_data.py: CommonDataList.append, extend, append_or_extend", "cis/data_io/gridded_data.py:GriddedDataList.add_aux_coord", "cis/data_io/gridded_data.py:GriddedDataList.remove_coord", "cis/data_io/gridded_data.py:GriddedDataList.transpose", "cis/data_io/gridded_data.py:GriddedDataList.extract", "cis/data_io/gridded_data.py:GriddedDataList.intersection", "cis/data_io/gridded_data.py:GriddedDataList.interpolate", "cis/data_io/products/AProduct.py: get_data, get_coordinates, get_variables, get_file_format, ProductPluginException", "cis/exceptions.py: FileFormatError, UserPrintableException", "cis/cis_main.py: __error_occurred, main", "cis/info.py: info", "cis/data_io/hyperpoint_view.py: UngriddedHyperPointView.__setitem__, GriddedHyperPointView.__setitem__", "cis/data_io/ungridded_data.py: LazyData.data_flattened, UngriddedData.get_all_points", "cis/data_io/hdf_sd.py: HDF_SDS, read, get_hdf_SD_file_variables, get_metadata", "cis/data_io/hdf_vd.py: read, get_data, get_metadata, get_hdf_VD_file_variables, _get_attribute_value, _pop_attribute_value", "cis/utils.py: create_masked_array_for_missing_values"]}
{"id": "C172", "title": "Attributes of files mean what the conventions say", "statement": "Scale factors, offsets, valid limits and missing values of every type and combination are applied as the conventions of the formats say when reading, and attributes of saved files are consistent with the saved values and with what the user did to them (C75, C96, C127).", "quantifier": "all attributes of all types and in all combinations", "why_tests_cant": "The cases where it fails are found by considering every input, not by examples of ordinary use.", "anchors": ["cis/data_io/netcdf.py:get_data", "cis/data_io/netcdf.py:apply_offset_and_scaling", "cis/data_io/hdf_sd.py:get_data", "cis/data_io/products/caliop.py", "cis/data_io/write_netcdf.py: write_coordinate_list, add_data_to_file, __create_variable, __add_metadata", "cis/data_io/products/products.py: cis", "cis/data_io/netcdf.py: get_data, get_metadata", "cis/data_io/ungridded_data.py: UngriddedDataList.save_data, UngriddedData._post_process", "cis/data_io/write_netcdf.py:__add_metadata", "cis/data_io/write_netcdf.py:__get_missing_value", "cis/data_io/netcdf.py:get_metadata", "cis/data_io/netcdf.py:find_missing_value", "cis/data_io/ungridded_data.py:LazyData.add_attributes", "cis/data_io/ungridded_data.py:LazyData.remove_attribute"]}
{"id": "C173", "title": "Files read together are files of their own", "statement": "Each value of a data set made of several files has the coordinates, altitudes, units and names of its own file, a variable that is listed can be read and one that can be read is listed, and files that agree in their content can be read together whatever their history (C77, C87, C92, C93, C101, C107, C118).", "quantifier": "all lists of files of all products", "why_tests_cant": "The cases where it fails are found by considering every input, not by examples of ordinary use.", "anchors": ["cis/data_io/netcdf.py:read_many_files_individually", "cis/data_io/hdf.py:read", "cis/data_io/hdf.py:_read_hdf4", "cis/data_io/hdf.py:read_data", "cis/data_io/hdf.py:get_hdf4_file_variables", "cis/utils.py:concatenate", "cis/utils.py:add_element_to_list_in_dict", "cis/data_io/products/cloudsat.py:CloudSat._create_coord_list", "cis/data_io/products/caliop.py:abstract_Caliop._create_coord_list", "cis/utils.py:expand_1d_to_2d_array", "cis/data_io/products/NCAR_NetCDF_RAF.py: NCAR_NetCDF_RAF_variable_name_selector, NCAR_NetCDF_RAF.create_coords, _create_coordinates_list, _create_time_coord, _create_fixed_value_coord, _add_aux_coordinate, find_auxiliary_coordinate", "cis/utils.py: dimensions_compatible, expand_1d_to_2d_array", "cis/data_io/products/EarthCARE.py: EarthCARE_MSI_ATL.create_data_object, _create_coord_list", "cis/utils.py: expand_1d_to_2d_array", {"file": "cis/data_io/aeronet.py", "symbols": ["load_aeronet", "load_multiple_aeronet"]}, {"file": "cis/data_io/products/products.py", "symbols": ["Aeronet.create_data_object", "Aeronet._create_coord_list"]}, "cis/data_io/products/AProduct.py:AProduct.get_variable_names", "cis/data_io/products/MODIS.py:MODIS_L2.get_variable_names", "cis/data_io/products/MODIS.py:MODIS_L3.get_variable_names", "cis/data_io/products/caliop.py:abstract_Caliop.get_variable_names", "cis/data_io/products/cloudsat.py:CloudSat.get_variable_names", "cis/data_io/gridded_data.py: load_cube, GriddedData.__init__", "cis/data_io/products/HadGEM.py: HadGEM_CONVSH.load_multiple_files_callback, HadGEM_PP", "cis/data_io/products/CCI.py: load_multiple_files_callback", "cis/data_io/products/gridded_NetCDF.py: NetCDF_Gridded._create_cube"]}
{"id": "C174", "title": "Plots show the data at their coordinates", "statement": "Every plot shows each value at its own coordinates and every label, tick, limit and statistic is that of the data, for every shape of the data, choice of axes, order of options and central longitude (C86, C88, C89, C90, C91, C99, C121, C122, C126).", "quantifier": "all data, axes, types of plots and options", "why_tests_cant": "The cases where it fails are found by considering every input, not by examples of ordinary use.", "anchors": ["cis/plotting/taylor.py: Taylor.__init__, Taylor.__call__", "cis/plotting/plot.py:multilayer_plot", "cis/plotting/plot.py:taylor_plot", "cis/plotting/formatted_plot.py:Plotter", "cis/cis_main.py:plot_cmd", "cis/plotting/plot.py:get_axis", "cis/plotting/plot.py:_try_coord", "cis/plotting/plot.py:basic_plot", "cis/plotting/genericplot.py:Generic2DPlot._cube_manipulation", "cis/plotting/heatmap.py:Heatmap", "cis/plotting/formatted_plot.py:apply_axis_limits", "cis/plotting/formatted_plot.py:get_x_wrap_start", "cis/plotting/formatted_plot.py:Plotter.set_width_and_height", "cis/plotting/plot.py:drawcoastlines", "cis/plotting/contourplot.py:ContourPlot", "cis/utils.py:find_longitude_wrap_start", "cis/plotting/histogram.py: Histogram", "cis/plotting/histogram2d.py: Histogram2D", "cis/plotting/comparativescatter.py: ComparativeScatter", "cis/plotting/plot.py: basic_plot", "cis/utils.py: apply_intersection_mask_to_two_arrays", "cis/plotting/genericplot.py: GenericPlot.__init__, Generic2DPlot.unpack_data_items", "cis/plotting/plot.py: set_x_axis_as_time", "cis/plotting/formatted_plot.py: apply_axis_limits", "cis/plotting/formatted_plot.py: apply_map_axis_limits, apply_axis_limits"]}
{"id": "C175", "title": "Abstract classes are never plugins", "statement": "Plugin discovery leaves out every class whose name marks it as abstract, and finds every class of a plugin file that follows the interface, wherever in the search it appears (C50).", "quantifier": "all sets of classes and plugin files", "why_tests_cant": "The cases where it fails are found by considering every input, not by examples of ordinary use.", "anchors": ["cis/plugin.py: find_plugins, find_plugin_classes"]}
{"id": "C176", "title": "Modified points have the components given", "statement": "modified() of a point replaces every component that is given, in every form the constructor accepts (C42).", "quantifier": "all points, all components, all forms of times and values", "why_tests_cant": "The cases where it fails are found by considering every input, not by examples of ordinary use.", "anchors": ["cis/data_io/hyperpoint.py: HyperPoint"]}
{"id": "C177", "title": "Double precision changes nothing a user sees", "statement": "Longitude ranges, numbers of cells, separations, nearest points, means, interpolated values and times computed in double precision are those of exact arithmetic whenever the exact result is a number of double precision (C132, C133, C134, C135, C136, C138).", "quantifier": "all numbers of double precision", "why_tests_cant": "The cases where it fails are found by considering every input, not by examples of ordinary use.", "anchors": [{"file": "cis/utils.py", "symbols": ["fix_longitude_range"]}, {"file": "cis/data_io/ungridded_data.py", "symbols": ["set_longitude_range"]}, {"file": "cis/aggregation/ungridded_aggregator.py", "symbols": ["aggregation_grid_array", "_make_partially_collapsed_coord"]}, {"file": "cis/collocation/data_index.py", "symbols": ["GridCellBinIndexInSlices.index_data"]}, {"file": "cis/collocation/col_implementations.py", "symbols": ["SepConstraint.alt_constraint", "SepConstraint.pres_constraint", "nn_altitude"]}, {"file": "cis/time_util.py", "symbols": ["convert_sec_since_to_std_time"]}]}
{"id": "C178", "title": "Options of a collocation are used as written", "statement": "A collocator written with options on the command line, box[h_sep=50km,t_sep=P1D,fill_value=-999,...], selects exactly the separations written: h_sep in km and a_sep in m whatever of the two units is written, p_sep as a ratio, t_sep as a duration in days, and none that is not written; the fill value, names, units and the flag for missing samples are those written; a collocation is refused exactly if the method is not one of those for the two kinds of data (points or grid), an option is unknown to box, a value cannot be read, or a kernel is given for grid onto grid. Results carry the given names, or those of the variable; moments adds the standard deviation and number of points under the name with _std_dev and _num_points; names of different variables stay different.", "quantifier": "all option lists in any order, all methods, kernels, spellings of numbers, units and durations, and all lists of variables", "why_tests_cant": "The options pass through four layers of keyword arguments; a swapped or dropped one shows only for particular combinations.", "anchors": [{"file": "cis/cis_main.py", "symbols": ["col_cmd"]}, {"file": "cis/data_io/ungridded_data.py", "symbols": ["UngriddedData.sampled_from", "UngriddedDataList.collocated_onto", "_ungridded_sampled_from"]}, {"file": "cis/data_io/gridded_data.py", "symbols": ["GriddedData.sampled_from"]}, {"file": "cis/collocation/col_implementations.py", "symbols": ["SepConstraint", "SepConstraintKdtree", "GeneralUngriddedCollocator", "GeneralGriddedCollocator", "GriddedUngriddedCollocator", "GriddedCollocator", "moments"]}]}
{"id": "C179", "title": "Every documented option of a collocation has its effect or is refused", "statement": "Every documented method and option of a collocation has its documented effect, and everything else is refused: extrapolate extrapolates, box works onto a grid, var_name names the results of every method, the options of moments name its results, a month of t_sep is the twelfth part of a Gregorian year, unknown options are refused, and the results of several variables do not share a name.", "quantifier": "all documented methods and options, all values", "why_tests_cant": "The cases where it fails are found by considering every option and every pair of kinds of data, not by examples of ordinary use.", "anchors": [{"file": "cis/cis_main.py", "symbols": ["col_cmd"]}, {"file": "cis/data_io/gridded_data.py", "symbols": ["GriddedData.sampled_from"]}, {"file": "cis/collocation/col_implementations.py", "symbols": ["GeneralGriddedCollocator", "GriddedCollocator", "moments"]}]}
{"id": "C180", "title": "A subset keeps the points within the limits as written", "statement": "cis subset with limits name=[a,b] or name=[a], any number of them in any order, keeps exactly the points whose coordinates lie within every range as written, in order, with all coordinates and values at their positions, and reports that there is no data otherwise. Names are variable names, standard names or axes; numbers are limits of the coordinate (None or an infinity for an open end); whole dates are limits of the date of the point; t=[2008-05] means the points whose date is in May 2008; longitudes are compared modulo 360 for data and limits in one of the conventions (C37), and only limited longitudes are converted. A name that finds no coordinate is reported. (Exceptions to the documentation: C181.)", "quantifier": "all texts of limits in the documented form, all coordinates, dates and data", "why_tests_cant": "The text passes through reading, lookup, filling of defaults, conversion of longitudes and comparison of dates; each step can be right while the whole keeps other points.", "anchors": [{"file": "cis/cis_main.py", "symbols": ["subset_cmd"]}, {"file": "cis/parse.py", "symbols": ["get_subset_limits"]}, {"file": "cis/parse_datetime.py", "symbols": ["parse_datetime", "parse_partial_datetime", "parse_as_number_or_datetime"]}, {"file": "cis/subsetting/subset.py", "symbols": ["subset", "UngriddedSubsetConstraint"]}, {"file": "cis/data_io/common_data.py", "symbols": ["CommonData._get_coord"]}]}
{"id": "C181", "title": "Subset limits mean what the documentation says", "statement": "variable=[value] keeps exactly the points with this value; a partial date as start of a range is the earliest compatible date and as end the latest, on whatever day the command runs; ranges may be open for every coordinate; all limits written are applied.", "quantifier": "all texts of limits", "why_tests_cant": "The cases where it fails are found by considering every form of limit and every day of the call, not by examples of ordinary use.", "anchors": [{"file": "cis/parse.py", "symbols": ["get_subset_limits"]}, {"file": "cis/parse_datetime.py", "symbols": ["_parse_datetime"]}, {"file": "cis/subsetting/subset.py", "symbols": ["subset", "UngriddedSubsetConstraint"]}]}
{"id": "C182", "title": "cis aggregate: from the text of the grid to the cells", "statement": "A grid argument of `cis aggregate` for ungridded data made of name=[start,end,step], comma separated, whose names find different coordinates and whose texts are numbers, whole dates or durations (None for an extreme value of the data), gives for each named coordinate the cells from the start by the step to the end and one cell with the limits of the data for each other coordinate; the value of each cell is the kernel of the values, not missing, of exactly the points in it. A start, end or step that is infinite or undefined gives no output.", "quantifier": "all data, grid texts of the documented form, kernels that do not depend on the order of values, and outcomes of the sort", "why_tests_cant": "The text, the lookup of the coordinates and the data are unbounded and interact (names, dates, conventions of longitude).", "anchors": ["cis/parse.py:get_aggregate_grid", "cis/parse_datetime.py:parse_as_number_or_datetime", "cis/data_io/ungridded_data.py:_aggregate_ungridded", "cis/cis_main.py:aggregate_cmd"]}
{"id": "C183", "title": "cis aggregate does what its documentation says of grids", "statement": "For ungridded data: a coordinate named alone is collapsed completely; a grid without a step is one cell; a partial date is the earliest compatible one as start and the latest as end; months and years of a step are calendar months and years.", "quantifier": "all data, names, dates and days on which the command runs", "why_tests_cant": "A test covers some texts on some days; the statements are about all of them.", "anchors": ["cis/parse.py:get_aggregate_grid", "cis/data_io/ungridded_data.py:_aggregate_ungridded", "cis/parse_datetime.py:_parse_datetime", "cis/parse_datetime.py:_parse_datetime_delta"]}
{"id": "C184", "title": "cis col of points onto points, from the options to the values", "statement": "cis col var:data sample:collocator=box[...],kernel=... of ungridded data onto an ungridded sample gives, for every variable in the order asked for, its results under their names (name; for moments also name_std_dev and name_num_points), each of the length of the sample and with the fill value written. At each sample point the values are the statistic (mean, stddev, min, max, sum, moments; moments if none is named) of exactly the valid data values within all the separations written (h_sep in km or m, a_sep, p_sep as a ratio, t_sep as a duration), and missing if there are none, or if the sample is missing there and the flag says so.", "quantifier": "all option lists in any order and spelling, all the statistics, any number of variables, all sample points and data for which the search is exact (C17)", "why_tests_cant": "The path runs from the text of the options through units, durations, the choice of collocator and constraint to the tree search and the statistics, for any number of options, variables and points.", "anchors": ["cis/cis_main.py:col_cmd", "cis/parse.py:parse_colocate", "cis/data_io/ungridded_data.py:_ungridded_sampled_from", "cis/collocation/col_implementations.py:GeneralUngriddedCollocator.collocate", "cis/collocation/col_implementations.py:SepConstraintKdtree"]}
{"id": "C185", "title": "cis stats: what is printed and saved", "statement": "cis stats of exactly two variables with as many points, at least two of them missing in neither, prints every statistic once, in a fixed order, each under its own text, and saves each under its own name with the same value; no names clash, whatever the variables are called. Number of points, means, corrected standard deviations, mean and standard deviation of the difference (second minus first) are over exactly the points missing in neither; so are those of the relative difference if the first is nowhere zero, and the line of least squares if it is not constant. Nothing depends on the shapes, on the order of the points or on points missing in either. If the second variable is a line of the first, exactly this line is reported with r = 1 or -1 and standard error 0; data compared with themselves differ by 0 and have correlations 1; exchanging the variables exchanges their statistics and changes the sign of the mean difference. Anything else is refused.", "quantifier": "all pairs of variables of any shape and mask, all orders of points, all lines", "why_tests_cant": "The laws range over all data and all permutations of the points, and the completeness of the report over all outcomes.", "anchors": ["cis/cis_main.py:stats_cmd", "cis/stats.py:StatsAnalyzer.analyze", "cis/stats.py:StatisticsResult"]}
{"id": "C186", "title": "cis eval: from the command line to the saved variable", "statement": "cis eval with datagroups whose entries are variable names, optionally name=alias, all called differently and holding data on the same points, evaluates an elementwise expression over exactly these names: at every point the saved value is that of the expression with every name standing for the value, at that point, of the variable written with it, whatever the order and grouping of the entries. The result is on the coordinates of the variable written first, saved in the -o file (with .nc added if it has no extension) under the prefix of -o or calculated_variable, with the units given and, for each attribute key, the value given last. If two entries are called the same the command is refused and nothing is saved.", "quantifier": "all datagroups, aliases, files, values, elementwise expressions, units, attribute lists, output arguments and answers to the overwrite question", "why_tests_cant": "a test evaluates one expression on one pair of files; that names never get attached to the wrong variable must hold for every grouping, order and alias", "anchors": ["cis/cis_main.py: evaluate_cmd", "cis/parse.py: validate_eval_args, get_eval_datagroups, _set_aliases_for_datagroups, _create_attributes_dictionary, _validate_output_file", "cis/data_io/data_reader.py: read_datagroups, read_data_list", "cis/evaluate.py: Calculator.evaluate"]}
{"id": "C187", "title": "cis collapse: from the command line to the saved values", "statement": "cis collapse of gridded variables, with the dimensions named one by one or in one text with commas, each name meaning a coordinate of every variable (by its name; by a letter x, y, z, t, p in either case; or by its variable name), writes to the output (with .nc added if it has no extension), for each variable in order, the statistics of the kernel in order, named after the variable, on the dimensions that are left: each value is the statistic of exactly the cells that have a value and differ in the collapsed dimensions only, means weighted by the areas of the cells exactly if latitude is collapsed. A name that fits no coordinate, among other than one, makes the command fail. (Data with one coordinate: C160.)", "quantifier": "all variables of any shape and number, all names of coordinates, ways of writing them, values, missing cells, kernels mean, min, max, moments, none and (not over latitude) sum, output arguments and answers to the overwrite question", "why_tests_cant": "a test collapses one file over one or two dimensions; which cells go into which value must be right for every shape, naming and order of dimensions", "anchors": ["cis/cis_main.py: collapse_cmd", "cis/parse.py: validate_collapse_args, check_aggregate_kernel, _validate_output_file", "cis/data_io/gridded_data.py: GriddedData.collapsed, GriddedDataList.collapsed, _collapse_gridded", "cis/data_io/common_data.py: CommonData._get_coord", "cis/aggregation/gridded_collapsor.py: GriddedCollapsor"]}
{"id": "C188", "title": "cis subset of gridded data keeps exactly the cells asked for, from the text to the values", "statement": "For gridded variables on one grid and any number of limits name=[a,b] or name=[a] in any order, where each name finds a coordinate (different ones) and each text says a range suited to it: if each range contains a point of its coordinate, every variable is cut to exactly the cells inside all the ranges, dimension by dimension, in order (in degrees: up to whole turns, the points being moved into the range, and at most one rotation of the order), with the values and masks of these cells; otherwise the command reports that no data are left. Ranges in degrees with an open end mean the points on one side of the other end. An unknown name is reported.", "quantifier": "all lists of gridded variables on a common grid of any number of dimensions and sizes, all lists of limits and the texts they are written as", "why_tests_cant": "Grids, dimensions, orders of limits and positions of longitudes relative to the range vary without bound; parsing, lookup, filling of ends, extraction, wrapping and selection of values interact.", "anchors": [{"file": "cis/subsetting/subset.py", "symbols": ["subset", "GriddedSubsetConstraint.constrain"]}, {"file": "cis/data_io/gridded_data.py", "symbols": ["GriddedDataList.extract", "GriddedDataList.intersection"]}, {"file": "cis/data_io/common_data.py", "symbols": ["CommonData._get_coord"]}, {"file": "cis/parse.py", "symbols": ["get_subset_limits"]}, {"file": "cis/cis_main.py", "symbols": ["subset_cmd"]}]}
{"id": "C189", "title": "Limits of gridded data mean the coordinate values, for every variable", "statement": "On gridded data a limit on a coordinate other than longitude keeps the cells whose coordinate lies between the limits; ranges of dates may be open; each variable of a datagroup is cut as if it were alone.", "quantifier": "all gridded variables and limits", "why_tests_cant": "Failures appear only for limits outside the usual range, open ends of dates, or variables on different grids.", "anchors": [{"file": "cis/subsetting/subset.py", "symbols": ["subset", "GriddedSubsetConstraint.constrain"]}, {"file": "cis/data_io/gridded_data.py", "symbols": ["GriddedDataList.extract", "GriddedDataList.intersection"]}, {"file": "cis/data_io/common_data.py", "symbols": ["CommonData._get_coord"]}, {"file": "cis/parse.py", "symbols": ["get_subset_limits"]}, {"file": "cis/cis_main.py", "symbols": ["subset_cmd"]}]}
{"id": "C190", "title": "Every function the documentation lists for expressions can be used in cis eval", "statement": "Each of the Python functions that the documentation of cis eval lists as available is known to every expression.", "quantifier": "all data and all functions listed", "why_tests_cant": "The list in the documentation and the names actually given to the expression are separate; a test of ordinary expressions uses few of them.", "anchors": [{"file": "cis/evaluate.py", "symbols": ["Calculator.SAFE_BUILTINS", "Calculator.evaluate"]}, {"file": "doc/evaluation.rst", "symbols": ["python builtins"]}]}
{"id": "C191", "title": "cis col of gridded data onto points does what its options say", "statement": "cis col of gridded data onto ungridded points, with lin (also by default) or nn and any general options in any order, for any number of variables on one grid, yields for each variable in order one result under the name, long name and units given as options or else its own, with the fill value given; for each point of the sample in order its value is missing if the sample is missing there and this matters (as the option says, or else if a sample variable is given) or if the point is out of the range of some dimension, and otherwise the multilinear interpolation of this variable between the neighbouring nodes, or its value at the nearest node.", "quantifier": "all texts of options, all grids that the interpolator handles (C18), all variables, all samples and masks", "why_tests_cant": "Composition of parsing, dispatch, caching and arithmetic over unbounded grids, variables and samples.", "anchors": [{"file": "cis/cis_main.py", "symbols": ["col_cmd"]}, {"file": "cis/collocation/col_implementations.py", "symbols": ["GriddedUngriddedCollocator.collocate"]}, {"file": "cis/collocation/gridded_interpolation.py", "symbols": ["GriddedUngriddedInterpolator"]}, {"file": "cis/data_io/ungridded_data.py", "symbols": ["_ungridded_sampled_from"]}]}
{"id": "C192", "title": "Missing values of a sample matter only where the sample has missing values", "statement": "With missing_data_for_missing_sample, collocating gridded data onto a sample without missing values gives what it gives without it, whether the sample has a plain array, a masked array with or without a mask, or coordinates only.", "quantifier": "all samples without missing values, all data", "why_tests_cant": "A masked array without mask behaves as one with a mask in almost every operation; that it fails in one place is found by considering every kind of sample.", "anchors": [{"file": "cis/collocation/gridded_interpolation.py", "symbols": ["GriddedUngriddedInterpolator.__init__"]}, {"file": "cis/data_io/ungridded_data.py", "symbols": ["LazyData.data", "UngriddedCoordinates"]}, {"file": "cis/data_io/common_data.py", "symbols": ["CommonData.collocated_onto"]}]}
{"id": "C193", "title": "cis col of points onto a grid", "statement": "`cis col` of ungridded data onto a gridded sample with `bin` (also if no method is given), any general options in any order and a statistic (moments if none is given), for any number of variables: for a sample whose cells follow each other upwards, with or without bounds, and with longitudes in one of the two conventions, each variable yields its results, in order, under the name, long name and units given as options or else its own, with the fill value. Their dimensions are those of the sample that the data have coordinates for, in the order of the sample. In every cell the values are the statistic of exactly the valid values of the points in the cell, longitudes being angles, and missing if there are none, or if the sample is missing there and this matters. If it matters and the data lack a coordinate of the sample, the command ends with a message. (Other samples: C194.)", "quantifier": "all option texts, statistics, samples (any number and order of coordinates, with and without bounds, dimension and other coordinates), lists of variables with any standard coordinates, values and missing values, and any order of points within cells the sort gives", "why_tests_cant": "The result depends on the options, the order of the coordinates of the sample, the coordinates of the data, the bounds, the longitude conventions and every point; tests show some combinations.", "anchors": ["cis/cis_main.py:col_cmd", "cis/data_io/ungridded_data.py:sampled_from", "cis/data_io/gridded_data.py:sampled_from", "cis/collocation/col_implementations.py:GeneralGriddedCollocator", "cis/collocation/col_implementations.py:BinnedCubeCellOnlyConstraint", "cis/collocation/col_implementations.py:make_coord_map", "cis/collocation/col_implementations.py:_fix_longitude_range"]}
{"id": "C194", "title": "Points can be collocated onto every grid", "statement": "Ungridded data can be collocated onto every gridded sample: every point that lies in a cell, as it is described by the sample, counts in this cell, wherever the first column of longitudes is; samples with one level, and samples with scalar coordinates are samples like all others.", "quantifier": "all gridded samples and data", "why_tests_cant": "Whether a value is lost depends on the position of the grid relative to Greenwich and on coordinates that play no role; a test needs a point in the half cell in question.", "anchors": ["cis/collocation/col_implementations.py:GeneralGriddedCollocator.collocate", "cis/collocation/col_implementations.py:_find_longitude_range"]}
{"id": "C195", "title": "cis col of a grid onto a grid", "statement": "`cis col` of gridded data onto a gridded sample with `lin` (also if no method is given) or `nn` and any general options in any order, for any number of variables on one grid: each variable yields one result, in order, with its own metadata and no fill value. Its dimensions are the coordinates of the sample that are dimensions of the data, in the order of the sample, then the other dimensions of the data. In every cell the value is missing if the sample is missing there and this matters, and otherwise the interpolation of this variable at the coordinates of the cell, where longitudes are angles: at a node of the data it is the value there, whatever convention the longitudes of either have. A variable collocated onto itself is given back. (Other grids: C196.)", "quantifier": "all option texts, all samples with any dimensions, scalar coordinates and mask, all lists of variables on one grid in any order of dimensions, and every interpolation of iris", "why_tests_cant": "The result depends on the options, the order of dimensions of both grids, both longitude conventions, the mask and every cell; tests show some combinations.", "anchors": ["cis/cis_main.py:col_cmd", "cis/collocation/col_implementations.py:GriddedCollocator.collocate", "cis/collocation/col_implementations.py:_fix_longitude_range", "cis/data_io/gridded_data.py:GriddedData.set_longitude_range"]}
{"id": "C196", "title": "Grids can be collocated onto every grid", "statement": "Gridded data can be collocated onto every grid that has a coordinate in common with them: a variable has the same result alone and together with others, longitudes are angles for every grid, and a coordinate that belongs to no dimension changes nothing.", "quantifier": "all grids and lists of variables", "why_tests_cant": "Whether values are lost depends on where the grids start and end, and on which other variables are collocated in the same command.", "anchors": ["cis/collocation/col_implementations.py:GriddedCollocator.collocate", "cis/collocation/col_implementations.py:_find_longitude_range", "cis/data_io/gridded_data.py:GriddedData.set_longitude_range", "cis/data_io/gridded_data.py:GriddedDataList"]}
{"id": "C197", "title": "The order of points and files does not matter to aggregation, binning and statistics", "statement": "Aggregating ungridded data gives the same output grid and the same value in every cell (or the same error) whatever the order of the points, for every grid argument, and hence whatever the order in which the files are named, for any number of files, some possibly empty. The same holds for collocating points onto a grid, where each variable may have its points in an order of its own, and for everything `cis stats` prints and saves when the pairs come in another order. (For collocation onto points see C130.)", "quantifier": "all data, all rearrangements of their points and of the files, all grid arguments and options (also those that are refused), all kernels that do not depend on the order of their values, any sort used to group the points", "why_tests_cant": "The points are grouped by sorting them by cell number with a sort that promises nothing about equal keys; tests use a few orders of a few points.", "anchors": ["cis/aggregation/ungridded_aggregator.py: aggregate", "cis/collocation/data_index.py", "cis/collocation/col_implementations.py: GeneralGriddedCollocator", "cis/stats.py: StatsAnalyzer", "cis/data_io/ungridded_data.py: UngriddedData.aggregate"]}
{"id": "C198", "title": "Subsetting many files is subsetting each of them; a subset of a subset is the subset by all limits", "statement": "cis subset of data read from several files keeps exactly what cis subset of each file keeps, joined in the order of the files, and there is no output iff there is none for any file; subsetting the output of a subset by further limits gives what one command with all the limits gives. (For limits on longitudes this needs files and limits in one longitude convention.)", "quantifier": "all numbers of files (also files without points), points, coordinates and legible lists of limits", "why_tests_cant": "Tests read one or two files with one set of limits; the claim is about every split of the points into files and every list of limits.", "anchors": ["cis/data_io/common_data.py: CommonData.subset", "cis/subsetting/subset.py", "cis/data_io/ungridded_data.py: UngriddedData.subset", "cis/utils.py: concatenate"]}
{"id": "C199", "title": "cis info prints what it is asked for", "statement": "cis info v1,v2,...:files[:product=p] prints the descriptions of the variables, in order, each as the product for the first file makes it from all the files, up to the first that cannot be read, for which the user is told product and cause; cis info files prints each name that this product lists for the files exactly once and nothing else (for NetCDF files of products with the general listing: the variables of any of the files whose dimensions are valid for the product; for HDF4 files with --type SD the data sets, with --type VD the vdata). A product without a variable is refused. (The default of --type: C200.)", "quantifier": "all sets of products, lists of files and their contents, lists of variables, products, types, and results and exceptions of the products' methods", "why_tests_cant": "Tests call info with one product and mocked files; the claim is about every datagroup text, product set and file content.", "anchors": ["cis/info.py: info", "cis/cis_main.py: info_cmd", "cis/parse.py: validate_info_args", "cis/data_io/products/AProduct.py: get_variables, get_data, AProduct.get_variable_names", "cis/data_io/hdf.py: get_hdf4_file_variables"]}
{"id": "C200", "title": "cis info lists all variables of HDF files by default", "statement": "Without --type, and with --type All, cis info lists the data sets and the vdata of HDF files.", "quantifier": "all HDF files", "why_tests_cant": "The documentation says so of every HDF file; a test has one.", "anchors": ["cis/data_io/products/AProduct.py: AProduct.get_variable_names", "cis/data_io/hdf.py: get_hdf4_file_variables", "cis/parse.py: add_info_parser_arguments", "doc/file_information.rst"]}
{"id": "C201", "title": "Wider separations never lose data, anywhere on the globe", "statement": "Raising the separations of a collocation, or leaving some out, never makes a collocated value missing, never decreases the number of points or the maximum and never increases the minimum, for all positions of sample and data, also where the great-circle search misses points; the points found around a point within a distance are found, in the same order, within every larger one. (A horizontal separation of zero is excepted: C161.)", "quantifier": "all samples, data sets, separations, sample positions and kernels that use the data only", "why_tests_cant": "The great-circle search is wrong in places (C163), so no comparison with a brute-force search can show this; that its errors never reverse the effect of a larger separation is a property of every tree and every pair of distances.", "anchors": ["cis/collocation/kdtree.py: HaversineDistanceKDTree.query_ball_tree, _query_ball_point", "cis/collocation/col_implementations.py: GeneralUngriddedCollocator.collocate, SepConstraintKdtree, SepConstraint"]}
{"id": "C202", "title": "Units can be changed before or after", "statement": "Changing the units of the data, x to ax + b with a > 0, before aggregating, collapsing, collocating or interpolating gives what changing the units of the result gives: means, extremes, nearest neighbours and interpolated values are changed the same way, standard deviations and sums are scaled by a (for sums and root mean squares with b = 0), numbers of points stay, and missing values and errors stay where they were.", "quantifier": "all data, grids, separations, kernels, positions and changes of units", "why_tests_cant": "A test converts one data set; the claim is for every kernel on every list of values, every grid, tree search and pattern of missing values, in both orders.", "anchors": ["cis/collocation/col_implementations.py: GeneralUngriddedCollocator.collocate, kernels", "cis/aggregation/ungridded_aggregator.py: aggregate", "cis/aggregation/collapse_kernels.py", "cis/collocation/gridded_interpolation.py"]}
{"id": "C203", "title": "cis plot: from the options to the calls of matplotlib", "statement": "A plot made by `cis plot` has every layer drawn exactly once by the function of its type, with the colours, styles, widths, bins, contour levels, colour map, transparency and range of colours asked for (options of the dataset before options of the command); a layer with two coordinates has one colour bar with the orientation, size, ticks and label asked for unless switched off; maps have coastlines in the colour asked for; the labels and the title given are those shown in the end, whatever the layers; without them the labels are those of the coordinates of the last layer; limits, size and log scales are applied; the plot is saved once to the file given, after everything is drawn, or shown once; invalid styles and keywords matplotlib refuses make the command fail without output. (Options without their documented effect: C204.)", "quantifier": "all datasets, layers, options and values; all behaviours of matplotlib's keyword checks", "why_tests_cant": "a test looks at one combination of type and options; there are ten types, some forty options in two places and any number of layers", "anchors": ["cis/plotting/formatted_plot.py:Plotter", "cis/plotting/genericplot.py", "cis/plotting/plot.py:basic_plot, add_color_bar", "cis/plotting/contourplot.py", "cis/plotting/scatterplot.py", "cis/plotting/lineplot.py", "cis/plotting/histogram.py"]}
{"id": "C204", "title": "Every accepted option of a plot has its documented effect", "statement": "An option of `cis plot` that is accepted for a layer or for the command changes the plot as documented: colours and styles change the items drawn, --logv, --logx and --logy make the axes logarithmic, --nasabluemarble replaces coastlines, the size of colour bars has the documented default.", "quantifier": "all types of plots and option values", "why_tests_cant": "each failing combination needs its own plot to be noticed, and the plot looks plausible", "anchors": ["cis/plotting/genericplot.py", "cis/plotting/contourplot.py:ContourPlot.__init__", "cis/plotting/histogram2d.py", "cis/plotting/formatted_plot.py:Plotter", "doc/plotting.rst"]}
{"id": "C205", "title": "Coordinates in other units", "statement": "Only differences of altitude and time and ratios of pressure matter to a collocation, and only the order of a coordinate and the distances along it to the other commands: if the origin or the units of a coordinate are changed, x to ax + b with a > 0, in the data and in what is asked for (sample and separations, grid, limits, position), then a collocation gives the same values, an aggregation or a collocation with bin puts the same points in the same cells and gives them the same values, an interpolation gives the same value, and a subset selects the same points; errors and missing values stay where they were.", "quantifier": "all data, samples, separations, kernels, grids, limits, positions and changes of origin and units of altitude, pressure and time (subset and collocation) or of any coordinate (aggregation, bin, interpolation)", "why_tests_cant": "Each is an equality of two runs on related inputs, for every input and every change of units; a test compares a few.", "anchors": ["cis/collocation/col_implementations.py: SepConstraintKdtree, nn_altitude, nn_pressure, nn_time", "cis/aggregation/ungridded_aggregator.py", "cis/collocation/data_index.py: GridCellBinIndexSlices", "cis/collocation/gridded_interpolation.py: RegularGridInterpolator", "cis/subsetting/subset.py"]}
{"id": "C206", "title": "subset() from Python keeps what its arguments say", "statement": "Calling data.subset(name=\u2026, \u2026) on an ungridded variable with keyword arguments of the documented forms (a slice or pair of numbers or None, a slice or pair of datetimes, a PartialDateTime alone or in a list) keeps exactly the points for which every argument holds, in order, with all coordinates and values at the same positions, and gives no result if there are none; a slice and a pair mean the same; a name that finds no coordinate, a sequence with another number of entries, a lone number and a PartialDateTime as one of two ends are refused; cis subset does the same as the method for the arguments it reads.", "quantifier": "for every ungridded variable, every number and order of keyword arguments and every value of them", "why_tests_cant": "Tests call subset with a few arguments on one data set; the set of kept points has to be right for every combination of argument forms, names, coordinates and values.", "anchors": ["cis/subsetting/subset.py: subset", "cis/subsetting/subset.py: UngriddedSubsetConstraint.constrain", "cis/data_io/ungridded_data.py: UngriddedData.subset"]}
{"id": "C207", "title": "The examples in the documentation of subset()", "statement": "data.subset(time=[datetime(1984, 8, 28), datetime(1984, 8, 29)], altitude=[45.0, 75.0]) keeps the data from the start of the 28th to the end of the 29th; time=[PartialDateTime(1984, 9)] keeps all of September 1984; one of the two entries of a constraint can be None.", "quantifier": "for every ungridded variable with a time coordinate and every date", "why_tests_cant": "The documented meaning concerns all instants of the last day and all dates; tests only use data with points at midnight.", "anchors": ["doc/cis_api.rst: Subsetting", "cis/data_io/common_data.py: CommonData.subset", "cis/subsetting/subset.py: subset"]}
{"id": "C208", "title": "Commands run side by side do not disturb each other", "statement": "Let any number of cis commands that write files of ungridded data run at the same time on one disk, none of which reads or writes the output file of another. Then in every interleaving of their accesses to the disk, and at every moment of it (so also if some of them are killed or never get another turn), each command is where it would be if it had made as many steps alone, its output file is as it would be then, and every file that is no output of any of them is as it was. If each command can do its work on the disk as it was at the beginning, every schedule that gives them enough turns ends with all of them done and each output complete, as if they had been run one after another. A command whose output exists when it starts and that may not overwrite changes nothing. A command of which an input is missing, or whose operation fails, ends without success and changes nothing.", "quantifier": "all families of commands with any inputs, outputs, operations and consent, all initial states of the disk, all schedules (finite sequences of turns)", "why_tests_cant": "interleavings are not reproducible in a unit test, and their number grows exponentially with the number of steps", "anchors": ["cis/parse.py: _validate_output_file, _file_already_exists_and_no_overwrite, _output_file_matches_an_input_file", "cis/data_io/write_netcdf.py: write_coordinate_list, add_data_to_file", "cis/data_io/ungridded_data.py: UngriddedDataList.save_data", "cis/data_io/data_reader.py"]}
{"id": "C209", "title": "Commands that use the same files at the same time", "statement": "When cis commands that share files run at the same time, an output that exists is never overwritten without consent, the output of each command that ends successfully is complete and all from that command, and a command that reads the output of another one gets the finished file or fails. (Not true of the code: the check for an existing output is made once, at the start, and the output is opened and closed again for every variable under its final name.)", "quantifier": "all pairs of commands with a common output, or of which one reads the output of the other, and all schedules", "why_tests_cant": "the failure needs a particular interleaving of the disk accesses of two processes", "anchors": ["cis/parse.py: _file_already_exists_and_no_overwrite", "cis/data_io/write_netcdf.py: write_coordinate_list, add_data_to_file"]}
{"id": "C210", "title": "A script of commands gives the same files when run by a batch system", "statement": "Let a script of cis commands that write ungridded data succeed when run one after another, later commands reading outputs of earlier ones, each writing a file of its own, none writing what an earlier one has read. Run the same commands at the same time, in any interleaving of their accesses to the disk in which each has its turns only when the commands whose output it reads are done (make -j, a batch system with dependencies). Then at every moment each command is where it would be in the script after as many steps, and its output too; such a run can always go on until all commands are done; and then the whole disk is exactly what the script leaves.", "quantifier": "all scripts of any length with any operations, all initial disks, all schedules that heed the dependencies", "why_tests_cant": "the number of interleavings is exponential, and dependencies form arbitrary graphs", "anchors": ["cis/parse.py: _validate_output_file", "cis/data_io/write_netcdf.py: write_coordinate_list, add_data_to_file", "cis/data_io/ungridded_data.py: UngriddedDataList.save_data"]}
{"id": "C211", "title": "An analysis in several commands equals the one in memory", "statement": "Ungridded data of CIS (values that can be stored, standard names that are valid or absent) are saved and all variables read again: in memory are the same values, missing points, names, units, types, limits and packing; only the missing value that was written is now explicit and coordinates are called by their standard name. To save these again writes exactly the same file. Hence an analysis of any number of steps that do not depend on these two (subsetting with any limits is such a step), made as a chain of commands each of which reads the file of the one before, gives exactly the file that is saved when the steps are made in memory, and no other; as commands on a disk this holds for every schedule that waits for the inputs of each command, and all commands succeed. In particular two cis subset commands, the second on the output of the first, leave exactly the points within both sets of limits.", "quantifier": "all ungridded data that can be saved, all chains of steps of any length, all schedules of the commands", "why_tests_cant": "it composes any number of saves, reads and operations, and ranges over all data and schedules", "anchors": ["cis/data_io/write_netcdf.py: __create_variable, write_coordinate_list, add_data_to_file", "cis/data_io/netcdf.py: read, get_data, get_metadata", "cis/data_io/products/products.py: cis", "cis/data_io/data_reader.py: read_data_list", "cis/subsetting/subset.py: subset", "cis/cis_main.py: subset_cmd"]}
{"id": "C212", "title": "cis eval through files, before or after cis subset", "statement": "cis eval with an elementwise expression of variables of a file of ungridded data writes a file from which the output variable is read with the name and units given and, on all points of the inputs in their order, the value of the expression at each point, missing where it is missing, provided no value equals the default fill value. Evaluation can be a step of any chain of commands (C211). If cis subset is run first and cis eval on its output, or cis eval first and cis subset on its output, the variable in the last file has exactly the points of the original data within the limits, in order, with the value of the expression at each: both orders agree.", "quantifier": "all ungridded data that can be saved, all elementwise expressions, names, aliases, units and limits that do not convert longitudes", "why_tests_cant": "it ranges over all data and expressions and composes reading, evaluation, subsetting and writing", "anchors": ["cis/evaluate.py: Calculator.evaluate", "cis/data_io/ungridded_data.py: make_new_with_same_coordinates", "cis/cis_main.py: evaluate_cmd, subset_cmd", "cis/data_io/write_netcdf.py: add_data_to_file"]}
{"id": "C213", "title": "The file written by cis col for points on points holds the collocated values", "statement": "The file that cis col writes for ungridded data on an ungridded sample with box[...] (separations and a fill value) and a statistic can be read again with CIS. For every variable it holds the results under their names (for moments also name_std_dev and name_num_points), each with the coordinates of the sample point for point (longitudes as the same meridians, from -180 on if the sample has a negative longitude, else from 0 on). At each sample point the value read is the statistic of exactly the valid data values within the separations written, stored as floating point, and missing if there are none, or if the sample value is missing there and the flag says so. A sample and data that were saved and are read again give the same result as before.", "quantifier": "all samples and data with longitudes in any range, all option lists, all the statistics, any number of variables with different result names, for which the search is exact (C17) and no result equals the fill value", "why_tests_cant": "options, longitudes, search, statistics, writing and reading are tested one by one; that they fit together must hold for all of them", "anchors": ["cis/cis_main.py: col_cmd", "cis/collocation/col_implementations.py: GeneralUngriddedCollocator.collocate, _fix_longitude_range", "cis/collocation/col.py: collocate", "cis/data_io/write_netcdf.py", "cis/data_io/products/products.py: cis"]}
{"id": "C214", "title": "The file written by cis col for gridded data on points holds the interpolated values", "statement": "The file that cis col writes for gridded data on a sample of points with lin or nn (or no method) and a fill value can be read again with CIS. It holds every variable under the name, long name and units given as options, or else its own, with the coordinates of the sample point for point (longitudes as the same meridians in one range). At each point the value read is missing if the sample value is missing there and missing values matter (as the option missing_data_for_missing_sample says, by default exactly if there is a sample variable), or if the point is out of the range of the grid or a value needed there is missing, and otherwise the linear interpolation (for nn the value at the nearest node), stored as floating point.", "quantifier": "all samples of points with longitudes in any range, all grids with ascending dimensions (with one circular longitude dimension) of at least two nodes in the range of longitudes of the sample, all option lists without the options CIS gives itself, any number of variables with different result names and a fill value that no result equals", "why_tests_cant": "options, longitudes, interpolation, masks, writing and reading are tested one by one; that they fit together must hold for all of them", "anchors": ["cis/cis_main.py: col_cmd", "cis/collocation/col_implementations.py: GriddedUngriddedCollocator.collocate", "cis/collocation/gridded_interpolation.py: GriddedUngriddedInterpolator", "cis/collocation/col.py: collocate", "cis/data_io/write_netcdf.py", "cis/data_io/products/products.py: cis"]}
{"id": "C215", "title": "subset and collocation commute where they should", "statement": "`cis subset` and `cis col` of points onto points with the box method can be combined. (a) If the data is subset first, with limits that leave every valid value within the separations of a sample point, the result of `cis col` is the same, point for point, with the same names, units and attributes; the same holds if the subset goes through a file. (b) If the sample is subset first, the result is that same subset of the result for the whole sample: the values of the points that are left do not change. Conditions: the limits need no conversion of longitudes (C158) and leave something; the search by horizontal distance is exact (C17); in (a) each variable keeps a valid value; in (b) the longitudes of the sample are in one range, and not all negative ones are removed.", "quantifier": "all options of the box method, all kernels that look at the values only, all lists of variables, all coordinates, all limits, all points", "why_tests_cant": "The two orders run different code on different arrays (a mask over rows, an index, a loop over points); tests compare either alone on a few points, and neither order against the other.", "anchors": ["cis/cis_main.py: subset_cmd, col_cmd", "cis/collocation/col_implementations.py: GeneralUngriddedCollocator, SepConstraintKdtree", "cis/subsetting/subset.py: subset", "cis/data_io/ungridded_data.py: UngriddedDataList.subset, UngriddedData.subset"]}
{"id": "C216", "title": "cis subset before cis aggregate", "statement": "If `cis subset` of ungridded data leaves every point with a valid value that lies in a cell of a grid (for example limits that begin no later and end no earlier than the cells), then `cis aggregate` with this grid, its starts and ends written out, gives for the subset what it gives for all data: the same value in every cell, and the same points and bounds of the coordinates that have a grid. A coordinate without a grid gets one cell, from the least to the greatest value that is left.", "quantifier": "all data on any coordinates, all legible limits arguments (longitudes in one convention), all legible grid arguments with any number of grids, all kernels, all sort orders of equal cell numbers", "why_tests_cant": "Both commands are tested alone on small files; that limits and cells are compared alike (closed limits, half-open cells, dates in units of the coordinate, missing values) must hold for all points.", "anchors": ["cis/cis_main.py: subset_cmd, aggregate_cmd", "cis/subsetting/subset.py: subset, UngriddedSubsetConstraint", "cis/data_io/ungridded_data.py: _aggregate_ungridded", "cis/aggregation/ungridded_aggregator.py"]}
{"id": "C217", "title": "The Python functions of a collocation and the command agree", "statement": "For ungridded data and samples, data.collocated_onto(sample, ...) and sample.sampled_from(data, ...) give the same results for the same arguments, also when the flag missing_data_for_missing_sample is left out and its defaults differ; cis col data sample with the same method, kernel and options gives the same as the two functions and is refused exactly when they are (the flag left out, or written as true or false anywhere among the options); coordinates without values are never accepted as data and a list never as sample; data.collocated_onto(other) and data.sampled_from(other) have the points of the other and of the data, so that they differ if the numbers of points do. [The equivalence that the documentation gives: C218.]", "quantifier": "all data (one variable or a list), samples with values or coordinates only, methods, kernels and option lists", "why_tests_cant": "The functions have different defaults for the flag in three classes; a test tries a few argument lists, and equality must hold for every argument list and object.", "anchors": ["cis/data_io/common_data.py: collocated_onto", "cis/data_io/ungridded_data.py: UngriddedData.sampled_from, UngriddedCoordinates.sampled_from, UngriddedCoordinates.collocated_onto, _ungridded_sampled_from", "cis/cis_main.py: col_cmd", "cis/collocation/col.py: get_kernel"]}
{"id": "C218", "title": "The documented Python equivalent of cis col", "statement": "As documented (cis_api.rst, Collocation): cis col Temperature:2010.nc 2009.nc:variable=Temperature gives what temperature_2010.sampled_from(temperature_2009) gives. [False of the code: it is temperature_2009.sampled_from(temperature_2010), C217.]", "quantifier": "all data and samples of one variable", "why_tests_cant": "The documented line runs without error and gives data of the same kind; only a comparison for data with different points shows that it is the other way round.", "anchors": ["doc/cis_api.rst: Collocation", "cis/cis_main.py: col_cmd", "cis/data_io/ungridded_data.py: UngriddedData.sampled_from"]}
{"id": "C219", "title": "Subset of the sample before a collocation of gridded data", "statement": "cis subset of a sample of points before cis col of gridded data onto it (lin or nn, any options) is the same as cis subset of the result with the same limits: whenever the command succeeds for the whole sample it succeeds for the part that is left, and all results have the same values at the points that are left, the same coordinates and metadata. Condition: the longitudes of the sample are in one range and, if some are negative, one of these is left (otherwise the collocation shifts them by 360 degrees).", "quantifier": "all samples, limits, options, grids of any number of dimensions and variables, samples with a variable or with coordinates only", "why_tests_cant": "The order of two commands must not matter for any sample, limits and grid; the points share the prepared interpolator, so that a dropped point could shift the others.", "anchors": ["cis/subsetting/subset.py: subset, GenericUngriddedDataSubset", "cis/collocation/col_implementations.py: GriddedUngriddedCollocator.collocate", "cis/collocation/gridded_interpolation.py: GriddedUngriddedInterpolator", "cis/cis_main.py: col_cmd, subset_cmd"]}
{"id": "C220", "title": "Subset of gridded data before a collocation onto points", "statement": "cis subset of gridded variables on one grid by limits, followed by cis col of what is left onto points (lin or nn, any general options), compared with cis col of all the data onto the same points: the collocation of the part fails exactly as that of the whole; if it succeeds, the results have the same metadata and the same value at every point of the sample within the part, if the method is nn, or the variable has no missing values, or no coordinate of the point is that of a cell; at points outside the part the value is missing. Condition: the limits move no longitude by whole turns, and what is left is a grid the interpolator handles.", "quantifier": "every list of variables on one grid of any number of dimensions and sizes, ascending or as the interpolator handles, with longitudes that go round or not; any number of limits in any order, in degrees, numbers or dates; any options; any points with or without missing values", "why_tests_cant": "a test compares the two for one grid, one pair of limits and a few points; that cutting the grid changes no value holds for every grid, all limits and all points", "anchors": ["cis/subsetting/subset.py: subset, GriddedSubsetConstraint.constrain", "cis/collocation/col_implementations.py: GriddedUngriddedCollocator.collocate", "cis/collocation/gridded_interpolation.py: GriddedUngriddedInterpolator, _RegularGridInterpolator", "cis/cis_main.py: subset_cmd, col_cmd"]}
{"id": "C221", "title": "Subset of gridded data before a collapse", "statement": "cis subset of gridded variables on one grid by limits, followed by cis collapse of what is left: the file has, for each variable in order, the statistics the kernel asks for, named after the variable, on the dimensions that are not collapsed, as long as the part; each value is the statistic of exactly the cells of all the data, before the subset, that are in all the ranges, have a value, and differ in the collapsed dimensions only. Condition if latitude is collapsed: bounds of latitude and longitude of the part are there or can be guessed, and its cells have the areas they have in all the data.", "quantifier": "every list of variables on one grid of any number of dimensions and sizes, with longitudes that are turned by the subset or not; any number of limits in any order; any dimensions to collapse; every kernel; all values and masks", "why_tests_cant": "a test compares the two commands for one grid and one pair of limits; that the collapse takes exactly the cells in the ranges, in whatever order the subset leaves them, holds for every grid, all limits and all masks", "anchors": ["cis/subsetting/subset.py: subset, GriddedSubsetConstraint.constrain", "cis/data_io/gridded_data.py: _collapse_gridded", "cis/aggregation/gridded_collapsor.py", "cis/cis_main.py: subset_cmd, collapse_cmd"]}
{"id": "C222", "title": "Subset of two variables before their statistics", "statement": "cis subset of two variables on the same points by limits, followed by cis stats of the result: the subset succeeds for both if a point is within the limits; cis stats accepts the two if and only if at least two points within all limits miss neither value; number of points, means, standard deviations, and mean and standard deviation of the difference are those of exactly these points; and everything printed and saved is what cis stats prints and saves for all the points with the values missing where a point is not within the limits.", "quantifier": "every number of points with any coordinates, values and missing values; any number of limits in any order, in numbers or dates (longitudes in one convention); any names; with or without an output", "why_tests_cant": "a test compares a few points and one pair of limits; that exactly the points within the limits count, in every statistic, holds for all points, all limits and all missing values", "anchors": ["cis/subsetting/subset.py: subset, UngriddedSubsetConstraint", "cis/stats.py: StatsAnalyzer", "cis/cis_main.py: subset_cmd, stats_cmd"]}
{"id": "C223", "title": "Subset of two gridded variables before their statistics", "statement": "cis subset of two gridded variables on one grid by limits that leave something, followed by cis stats of the result: the subset takes the same cells of both, each once; cis stats accepts the two if and only if at least two cells in all the ranges miss neither value; number of points, means, standard deviations, and mean and standard deviation of the difference are those of exactly these cells, also where the subset turns the longitudes; and everything printed and saved is what cis stats prints and saves for all the data, masked at the cells not in the ranges.", "quantifier": "every grid of any number of dimensions and sizes, with longitudes that are turned by the subset or not; any number of limits in any order, in degrees, numbers or dates; all values and masks; with or without an output", "why_tests_cant": "a test compares one grid and one pair of limits; that exactly the cells in the ranges count, in whatever order the subset leaves them, holds for all grids, all limits and all masks", "anchors": ["cis/subsetting/subset.py: subset, GriddedSubsetConstraint.constrain", "cis/stats.py: StatsAnalyzer", "cis/data_io/gridded_data.py: GriddedDataList", "cis/cis_main.py: subset_cmd, stats_cmd"]}
{"id": "C224", "title": "The vertical dimension of data with a hybrid coordinate may be any of the dimensions", "statement": "Interpolating gridded data with a hybrid height or pressure coordinate at points gives the same result wherever the vertical dimension comes among the dimensions of the data: every value and every hybrid height is used at its own horizontal position and level. A sample without the coordinate of a horizontal dimension, or with one of the vertical dimension, is refused.", "quantifier": "all data with ascending non-circular axes, all positions of the vertical dimension, all sets of horizontal dimensions on which the hybrid coordinate depends, all points, both methods, with and without extrapolation", "why_tests_cant": "All ranks, positions of the vertical dimension and dependencies of the hybrid coordinate.", "anchors": ["cis/collocation/gridded_interpolation.py: GriddedUngriddedInterpolator.__init__, __call__", "cis/utils.py: move_item_to_end"]}
{"id": "C225", "title": "Attributes of EarthCARE variables are read, and saved with the data", "statement": "An EarthCARE variable that is read has the long name, units and missing value of the file. If it is saved, every attribute of the file is in the new file, standard name and history included, with the exceptions of all variables (C127) and nothing else; a variable named like a standard name gets that as its standard name. A part of a variable is named after the variable and the part and has its units and missing value.", "quantifier": "all attributes of a file with all values, all names of variables", "why_tests_cant": "The attributes and their values are unbounded.", "anchors": ["cis/data_io/products/EarthCARE.py: get_metadata_EC, create_data_object", "cis/data_io/write_netcdf.py: __add_metadata"]}
{"id": "C226", "title": "Attributes of EarthCARE variables stay through commands and parts", "statement": "The standard name of an EarthCARE variable in memory is that of the file; its history stays when commands add to it; parts of a variable keep the other attributes.", "quantifier": "all attributes of a file with all values, all names of variables, all additions to the history", "why_tests_cant": "The attributes and their values are unbounded.", "anchors": ["cis/data_io/products/EarthCARE.py: get_metadata_EC, create_data_object", "cis/data_io/write_netcdf.py: __add_metadata"]}
{"id": "C227", "title": "HadGEM files converted by CONVSH: the variable asked for, with heights in metres and times in standard time", "statement": "From one HadGEM file a variable is read with its data, names and dimensions, if no other has the name; its hybrid height is in metres; its time, called time or only t, is in standard time, bounds included. A name that no variable has is refused. The names listed are those of the variables, and are names by which they can be asked for.", "quantifier": "all files: variables, names, times and hybrid heights with all values and units", "why_tests_cant": "The variables, names and coordinates of a file are unbounded.", "anchors": ["cis/data_io/products/HadGEM.py: HadGEM_CONVSH._create_cube, get_variable_names", "cis/data_io/products/gridded_NetCDF.py: create_data_object", "cis/time_util.py: convert_cube_time_coord_to_standard_time"]}
{"id": "C228", "title": "HadGEM files converted by CONVSH: every variable can be read and has its time in standard time", "statement": "A variable of a HadGEM file can be read whatever the units of its hybrid height, and its time is converted even if it has another coordinate called t.", "quantifier": "all files: variables, names, times and hybrid heights with all values and units", "why_tests_cant": "The variables, names and coordinates of a file are unbounded.", "anchors": ["cis/data_io/products/HadGEM.py: HadGEM_CONVSH._create_cube, get_variable_names", "cis/data_io/products/gridded_NetCDF.py: create_data_object", "cis/time_util.py: convert_cube_time_coord_to_standard_time"]}
