{
 "claims": [
  {
   "property": "C01",
   "status": "proved",
   "theorems": [
    "Cis.OrderedSet.c01_orderedSet_refines",
    "Cis.OrderedSet.c01_orderedSet_eq"
   ],
   "note": "Refinement of the dict + linked list representation to a duplicate-free list for every operation history."
  },
  {
   "property": "C02",
   "status": "proved",
   "theorems": [
    "Cis.FileList.c02_expand_filelist",
    "Cis.FileList.c02_expands_unique"
   ],
   "note": "File system and glob are parameters; the error branch is part of the specification."
  },
  {
   "property": "C03",
   "status": "proved",
   "theorems": [
    "Cis.IndexIter.c03_index_iterator_position",
    "Cis.IndexIter.c03_index_iterator_lex"
   ],
   "note": "For all shapes of any rank, also with zero-length dimensions. The masked variant is C139."
  },
  {
   "property": "C04",
   "status": "proved",
   "theorems": [
    "Cis.DataIndex.c04_slices_increasing"
   ],
   "note": "Every outcome of the (unstable) sort."
  },
  {
   "property": "C05",
   "status": "proved",
   "theorems": [
    "Cis.DataIndex.c05_bin_index"
   ],
   "note": "Increasing and decreasing grids with more than one cell in some dimension."
  },
  {
   "property": "C06",
   "status": "proved",
   "theorems": [
    "Cis.KDTree.c06_build",
    "Cis.KDTree.c06_build_error"
   ],
   "note": "Exact real arithmetic; any dimension, size and leaf size."
  },
  {
   "property": "C07",
   "status": "proved",
   "theorems": [
    "Cis.KDTree.c07_query_ball_point",
    "Cis.KDTree.c07_query_ball_point_eps"
   ],
   "note": "Every exponent 1 <= p <= infinity, eps = 0 exact, eps > 0 approximate."
  },
  {
   "property": "C08",
   "status": "proved",
   "theorems": [
    "Cis.KDTree.c08_query_ball_tree"
   ],
   "note": ""
  },
  {
   "property": "C09",
   "status": "proved",
   "theorems": [
    "Cis.KDTree.c09_query_pairs"
   ],
   "note": ""
  },
  {
   "property": "C10",
   "status": "proved",
   "theorems": [
    "Cis.KDTree.c10_count_neighbors"
   ],
   "note": ""
  },
  {
   "property": "C100",
   "status": "partial",
   "theorems": [
    "Cis.ModisInterp.c100_interpolated_partial",
    "Cis.ModisInterp.c100_files_partial",
    "Cis.ModisInterp.c100_scale",
    "Cis.ModisInterp.c100_plain",
    "Cis.ModisInterp.c100_python3_violated",
    "Cis.ModisInterp.c100_times_violated",
    "Cis.ModisInterp.c100_missing_violated",
    "Cis.ModisInterp.c100_antimeridian_violated",
    "Cis.ModisInterp.c100_files_violated"
   ],
   "note": "Proved with the integer division of Python 2: every inner pixel of every field has the bilinear value, centre pixels keep theirs, the outer two rows and columns have none. Violations, proved: with Python 3 no 1 km variable can be read; times are not interpolated; missing positions are taken for values; the antimeridian; seams between files."
  },
  {
   "property": "C101",
   "status": "proved",
   "theorems": [
    "Cis.AeronetLoad.c101_aligned",
    "Cis.AeronetLoad.c101_refused",
    "Cis.AeronetLoad.c101_units"
   ],
   "note": ""
  },
  {
   "property": "C102",
   "status": "proved",
   "theorems": [
    "Cis.Collapse.c102_mean",
    "Cis.Collapse.c102_sum",
    "Cis.Collapse.c102_mean_between",
    "Cis.Collapse.c102_min_max",
    "Cis.Collapse.c102_moments",
    "Cis.Collapse.c102_count_total",
    "Cis.Collapse.c102_list",
    "Cis.Collapse.c102_input",
    "Cis.Collapse.c102_refused"
   ],
   "note": "Over the contract of Cube.collapsed and area_weights. Median, gmean, hmean and peak are left to Iris."
  },
  {
   "property": "C103",
   "status": "proved",
   "theorems": [
    "Cis.Meta.c103_explicit",
    "Cis.Meta.c103_valid",
    "Cis.Meta.c103_guess_total",
    "Cis.Meta.c103_guess",
    "Cis.Meta.c103_units",
    "Cis.Meta.c103_colon",
    "Cis.Meta.c103_eq",
    "Cis.Meta.c103_name",
    "Cis.Meta.c103_summary"
   ],
   "note": "Ranges of times and after changes: C137."
  },
  {
   "property": "C104",
   "status": "proved",
   "theorems": [
    "Cis.Frame.c104_coords",
    "Cis.Frame.c104_data",
    "Cis.Frame.c104_list"
   ],
   "note": "Copying (aliasing) is not modelled."
  },
  {
   "property": "C105",
   "status": "proved",
   "theorems": [
    "Cis.ModisL3.c105_value",
    "Cis.ModisL3.c105_absent",
    "Cis.ModisL3.c105_slices"
   ],
   "note": ""
  },
  {
   "property": "C106",
   "status": "proved",
   "theorems": [
    "Cis.AggApi.c106_cells",
    "Cis.AggApi.c106_default",
    "Cis.AggApi.c106_names",
    "Cis.AggApi.c106_step_required"
   ],
   "note": ""
  },
  {
   "property": "C107",
   "status": "proved",
   "theorems": [
    "Cis.Listing.c107_modis_l2_listed",
    "Cis.Listing.c107_modis_l2_read",
    "Cis.Listing.c107_modis_l2_single",
    "Cis.Listing.c107_modis_dimensions",
    "Cis.Listing.c107_caliop_mixed",
    "Cis.Listing.c107_caliop_one_column",
    "Cis.Listing.c107_modis_l3_listed",
    "Cis.Listing.c107_caliop_listed",
    "Cis.Listing.c107_caliop_read",
    "Cis.Listing.c107_cloudsat_listed",
    "Cis.Listing.c107_cloudsat_vdata",
    "Cis.Listing.c107_cloudsat_sd",
    "Cis.Listing.c107_generic_netcdf",
    "Cis.Listing.c107_generic_hdf"
   ],
   "note": ""
  },
  {
   "property": "C108",
   "status": "proved",
   "theorems": [
    "Cis.Lon.Sharing.c108_list",
    "Cis.Lon.Sharing.c108_collocation"
   ],
   "note": ""
  },
  {
   "property": "C109",
   "status": "proved",
   "theorems": [
    "Cis.Files.c109_files",
    "Cis.Files.c109_setter_exact"
   ],
   "note": ""
  },
  {
   "property": "C11",
   "status": "proved",
   "theorems": [
    "Cis.KDTree.c11_query",
    "Cis.KDTree.c11_query_padding"
   ],
   "note": "heapq is a parameter with the contract that an entry of least distance is removed; eps = 0."
  },
  {
   "property": "C110",
   "status": "proved",
   "theorems": [
    "Cis.Time.Convert.c110_to_standard",
    "Cis.Time.Convert.c110_idempotent",
    "Cis.Time.Convert.c110_history",
    "Cis.Time.Convert.c110_round_trip",
    "Cis.Time.Convert.c110_julian",
    "Cis.Time.Convert.c110_tai"
   ],
   "note": "Exact arithmetic of the library conversions."
  },
  {
   "property": "C111",
   "status": "proved",
   "theorems": [
    "Cis.Args.c111_levels",
    "Cis.Args.c111_attributes",
    "Cis.Args.c111_attributes_value",
    "Cis.Args.c111_dimensions",
    "Cis.Args.c111_stats",
    "Cis.Args.c111_kernel"
   ],
   "note": ""
  },
  {
   "property": "C112",
   "status": "proved",
   "theorems": [
    "Cis.ListOps.c112_in_place",
    "Cis.ListOps.c112_new",
    "Cis.ListOps.c112_extract",
    "Cis.ListOps.c112_extract_none",
    "Cis.ListOps.c112_first"
   ],
   "note": "What Iris does to one cube is a parameter."
  },
  {
   "property": "C113",
   "status": "proved",
   "theorems": [
    "Cis.Inputs.c113_kept",
    "Cis.Inputs.c113_independent",
    "Cis.Inputs.c113_repeat",
    "Cis.Inputs.c113_history",
    "Cis.Inputs.c113_bounds"
   ],
   "note": ""
  },
  {
   "property": "C114",
   "status": "proved",
   "theorems": [
    "Cis.Errors.c114_success",
    "Cis.Errors.c114_reported",
    "Cis.Errors.c114_format",
    "Cis.Errors.c114_own_product",
    "Cis.Errors.c114_info"
   ],
   "note": ""
  },
  {
   "property": "C115",
   "status": "proved",
   "theorems": [
    "Cis.Ascii.c115_points",
    "Cis.Ascii.c115_fields",
    "Cis.Ascii.c115_error"
   ],
   "note": "float(), dateutil and the conversion of proper times are parameters; genfromtxt is modelled."
  },
  {
   "property": "C116",
   "status": "proved",
   "theorems": [
    "Cis.Hyper.Assign.c116_assign",
    "Cis.Hyper.Assign.c116_history",
    "Cis.Hyper.Assign.c116_read_back",
    "Cis.Hyper.Assign.c116_value",
    "Cis.Hyper.Assign.c116_outside",
    "Cis.Hyper.Assign.c116_gridded",
    "Cis.Hyper.Assign.c116_gridded_flat",
    "Cis.Hyper.Assign.c116_gridded_outside",
    "Cis.Hyper.Assign.c116_views",
    "Cis.Hyper.Assign.c116_data"
   ],
   "note": "Refinement to a list of points, for all histories."
  },
  {
   "property": "C117",
   "status": "proved",
   "theorems": [
    "Cis.Share.c117_values",
    "Cis.Share.c117_copy_kept",
    "Cis.Share.c117_data_own"
   ],
   "note": "Refinement of a heap of arrays and metadata objects to objects that are values."
  },
  {
   "property": "C118",
   "status": "proved",
   "theorems": [
    "Cis.Together.c118_fields",
    "Cis.Together.c118_succeeds",
    "Cis.Together.c118_pp_found",
    "Cis.Together.c118_pp_var",
    "Cis.Together.c118_construct",
    "Cis.Together.c118_cloud",
    "Cis.Together.c118_aerosol"
   ],
   "note": "iris's merge and concatenate are modelled by their documented effect."
  },
  {
   "property": "C119",
   "status": "proved",
   "theorems": [
    "Cis.Regress.c119_line_exists",
    "Cis.Regress.c119_least_squares",
    "Cis.Regress.c119_r",
    "Cis.Regress.c119_stderr",
    "Cis.Regress.c119_missing",
    "Cis.Regress.c119_swap",
    "Cis.Regress.c119_rank_monotone",
    "Cis.Regress.c119_rank_range",
    "Cis.Regress.c119_rank_one",
    "Cis.Regress.c119_count"
   ],
   "note": "Over the real numbers; scipy's mstats.linregress and spearmanr are modelled by their formulas (deviations from the means; correlation of mean ranks)."
  },
  {
   "property": "C12",
   "status": "proved",
   "theorems": [
    "Cis.KDTree.c12_sparse_distance_matrix",
    "Cis.KDTree.c12_distance_matrix"
   ],
   "note": ""
  },
  {
   "property": "C120",
   "status": "proved",
   "theorems": [
    "Cis.Regress.c120_relative"
   ],
   "note": ""
  },
  {
   "property": "C121",
   "status": "proved",
   "theorems": [
    "Cis.TimeAxis.c121_line",
    "Cis.TimeAxis.c121_distance",
    "Cis.TimeAxis.c121_limits",
    "Cis.TimeAxis.c121_2d",
    "Cis.TimeAxis.c121_dates",
    "Cis.TimeAxis.c121_dates_read",
    "Cis.TimeAxis.c121_labels_distinct",
    "Cis.TimeAxis.c121_time_of_day",
    "Cis.TimeAxis.c121_documented_step",
    "Cis.TimeAxis.c121_step_number"
   ],
   "note": ""
  },
  {
   "property": "C122",
   "status": "proved",
   "theorems": [
    "Cis.MapLimits.c122_given",
    "Cis.MapLimits.c122_latitudes",
    "Cis.MapLimits.c122_global",
    "Cis.MapLimits.c122_kept",
    "Cis.MapLimits.c122_step",
    "Cis.MapLimits.c122_ticks",
    "Cis.MapLimits.c122_background"
   ],
   "note": ""
  },
  {
   "property": "C123",
   "status": "proved",
   "theorems": [
    "Cis.GlobalOptions.c123_names",
    "Cis.GlobalOptions.c123_after",
    "Cis.GlobalOptions.c123_version",
    "Cis.GlobalOptions.c123_force_after"
   ],
   "note": "argparse as of Python 2.7.9/3.4.3"
  },
  {
   "property": "C124",
   "status": "proved",
   "theorems": [
    "Cis.Datagroups.c124_group",
    "Cis.Datagroups.c124_number_of_fields",
    "Cis.Datagroups.c124_basic",
    "Cis.Datagroups.c124_info",
    "Cis.Datagroups.c124_values",
    "Cis.Datagroups.c124_sample",
    "Cis.Datagroups.c124_levels",
    "Cis.Datagroups.c124_kernel",
    "Cis.Datagroups.c124_plot_checks",
    "Cis.Datagroups.c124_plot_options",
    "Cis.Datagroups.c124_plot"
   ],
   "note": ""
  },
  {
   "property": "C125",
   "status": "proved",
   "theorems": [
    "Cis.Hdf4.c125_values",
    "Cis.Hdf4.c125_success_iff",
    "Cis.Hdf4.c125_tried",
    "Cis.Hdf4.c125_closed",
    "Cis.Hdf4.c125_error",
    "Cis.Hdf4.c125_error_lost",
    "Cis.Hdf4.c125_slab",
    "Cis.Hdf4.c125_sd_names",
    "Cis.Hdf4.c125_listing",
    "Cis.Hdf4.c125_vd_get",
    "Cis.Hdf4.c125_vd_read",
    "Cis.Hdf4.c125_vd_values",
    "Cis.Hdf4.c125_shape",
    "Cis.Hdf4.c125_metadata"
   ],
   "note": "Handles reclaimed by garbage collection are not modelled."
  },
  {
   "property": "C126",
   "status": "proved",
   "theorems": [
    "Cis.Plot.TaylorDraw.c126_radius",
    "Cis.Plot.TaylorDraw.c126_size",
    "Cis.Plot.TaylorDraw.c126_labels",
    "Cis.Plot.TaylorDraw.c126_unmarked",
    "Cis.Plot.TaylorDraw.c126_position",
    "Cis.Plot.TaylorDraw.c126_folded",
    "Cis.Plot.TaylorDraw.c126_radius_cond",
    "Cis.Plot.TaylorDraw.c126_size_cond",
    "Cis.Plot.TaylorDraw.c126_draws"
   ],
   "note": "Colours are not modelled."
  },
  {
   "property": "C127",
   "status": "proved",
   "theorems": [
    "Cis.Attrs.c127_written",
    "Cis.Attrs.c127_succeeds",
    "Cis.Attrs.c127_read",
    "Cis.Attrs.c127_user",
    "Cis.Attrs.c127_round_trip",
    "Cis.Attrs.c127_steady",
    "Cis.Attrs.c127_settles"
   ],
   "note": ""
  },
  {
   "property": "C128",
   "status": "proved",
   "theorems": [
    "Cis.GAttrs.c128_remove_others",
    "Cis.GAttrs.c128_history",
    "Cis.GAttrs.c128_add",
    "Cis.GAttrs.c128_names",
    "Cis.GAttrs.c128_round_trip",
    "Cis.GAttrs.c128_list_round_trip",
    "Cis.GAttrs.c128_local"
   ],
   "note": "For all sequences of operations and lists of any length."
  },
  {
   "property": "C129",
   "status": "proved",
   "theorems": [
    "Cis.Subset.c129_steps",
    "Cis.Subset.c129_order",
    "Cis.Subset.c129_convert"
   ],
   "note": ""
  },
  {
   "property": "C13",
   "status": "proved",
   "theorems": [
    "Cis.HavTree.c13_query_ball_point",
    "Cis.HavTree.c13_same_place"
   ],
   "note": "Search around a single point. Exact real arithmetic (math.tan of a right angle has no exact counterpart, hence off the poles)."
  },
  {
   "property": "C130",
   "status": "proved",
   "theorems": [
    "Cis.Colloc.c130_local",
    "Cis.Colloc.c130_order",
    "Cis.Colloc.c130_far",
    "Cis.Colloc.c130_sample",
    "Cis.Colloc.c130_wider",
    "Cis.Colloc.c130_nearest"
   ],
   "note": ""
  },
  {
   "property": "C131",
   "status": "proved",
   "theorems": [
    "Cis.Agg.c131_points",
    "Cis.Agg.c131_union",
    "Cis.Agg.c131_coarsen"
   ],
   "note": ""
  },
  {
   "property": "C132",
   "status": "proved",
   "theorems": [
    "Cis.Fp.c132_range",
    "Cis.Fp.c132_near",
    "Cis.Fp.c132_idempotent",
    "Cis.Fp.c132_stable",
    "Cis.Fp.c132_order",
    "Cis.Fp.c132_list"
   ],
   "note": "Exponents are unbounded (no overflow, underflow, NaN)."
  },
  {
   "property": "C133",
   "status": "proved",
   "theorems": [
    "Cis.Fp.Grid.c133_cells",
    "Cis.Fp.Grid.c133_cells_near",
    "Cis.Fp.Grid.c133_points",
    "Cis.Fp.Grid.c133_bounds",
    "Cis.Fp.Grid.c133_cell"
   ],
   "note": ""
  },
  {
   "property": "C134",
   "status": "proved",
   "theorems": [
    "Cis.Fp.Kernel.c134_altitude_sound",
    "Cis.Fp.Kernel.c134_altitude",
    "Cis.Fp.Kernel.c134_symmetric",
    "Cis.Fp.Kernel.c134_pressure_sound",
    "Cis.Fp.Kernel.c134_pressure",
    "Cis.Fp.Kernel.c134_nearest",
    "Cis.Fp.Kernel.c134_nearest_some"
   ],
   "note": ""
  },
  {
   "property": "C135",
   "status": "proved",
   "theorems": [
    "Cis.Fp.Kernel.c135_mean",
    "Cis.Fp.Kernel.c135_mean_nonneg",
    "Cis.Fp.Kernel.c135_mean_one"
   ],
   "note": "For every tree of additions and every permutation of the values. Standard deviations are not covered."
  },
  {
   "property": "C136",
   "status": "proved",
   "theorems": [
    "Cis.Fp.Time.c136_near",
    "Cis.Fp.Time.c136_order",
    "Cis.Fp.Time.c136_sorted",
    "Cis.Fp.Time.c136_distinct",
    "Cis.Fp.Time.c136_subset",
    "Cis.Fp.Time.c136_days"
   ],
   "note": "References at midnight (otherwise C27)."
  },
  {
   "property": "C137",
   "status": "partial",
   "theorems": [
    "Cis.Meta.Ranges.c137_coords",
    "Cis.Meta.Ranges.c137_first",
    "Cis.Meta.Ranges.c137_data_partial",
    "Cis.Meta.Ranges.c137_dates",
    "Cis.Meta.Ranges.c137_violated",
    "Cis.Meta.Ranges.c137_current",
    "Cis.Meta.Ranges.c137_no_points"
   ],
   "note": "Coordinates: proved for all histories. Data: proved when their values were not changed in place; exactly, the range shown is always that of the values the object was made with, so that after convert_units the old range is shown with the new units (violation, proved)."
  },
  {
   "property": "C138",
   "status": "proved",
   "theorems": [
    "Cis.Fp.Interp.c138_outside",
    "Cis.Fp.Interp.c138_error",
    "Cis.Fp.Interp.c138_hull",
    "Cis.Fp.Interp.c138_nonneg",
    "Cis.Fp.Interp.c138_node",
    "Cis.Fp.Interp.c138_nearest",
    "Cis.Fp.Interp.c138_nearest_value"
   ],
   "note": "For every rounding to nearest (exponents unbounded: no overflow or underflow). Circular and decreasing axes, extrapolation and missing values: exact model (C18, C19)."
  },
  {
   "property": "C139",
   "status": "partial",
   "theorems": [
    "Cis.IndexIter.c03_non_masked_iterator",
    "Cis.IndexIter.c03_masked_variant_violated"
   ],
   "note": "The loop is right for any test of an element (c03_non_masked_iterator), but the code tests `it[0] is np.ma.masked`, which no element of nditer is: masked elements are yielded (negation proved)."
  },
  {
   "property": "C14",
   "status": "proved",
   "theorems": [
    "Cis.Colloc.c14_plain",
    "Cis.Colloc.c14_indexed",
    "Cis.Colloc.c14_indexed_tree"
   ],
   "note": "Pressures positive where a pressure separation is given. The indexed version is proved for every exact search and for the tree of the code."
  },
  {
   "property": "C140",
   "status": "partial",
   "theorems": [
    "Cis.Subset.subset_shape",
    "Cis.Subset.subset_shape_order_violated"
   ],
   "note": "With limits on other coordinates the result is independent (subset_shape); limits on longitude/latitude given before the shape are overwritten by its bounding box (negation proved)."
  },
  {
   "property": "C141",
   "status": "partial",
   "theorems": [
    "Cis.Read.c76_unknown_group_violated",
    "Cis.Read.c76_group_coordinates_violated"
   ],
   "note": "Both false (negations proved): a missing group raises KeyError, and coordinate variables inside groups are listed."
  },
  {
   "property": "C142",
   "status": "partial",
   "theorems": [
    "Cis.Limits.c81_other_name_violated",
    "Cis.Limits.c81_single_longitude_violated",
    "Cis.Limits.c81_shape_prefix_violated"
   ],
   "note": "False (negations proved): only `x` is checked, `x` with a single limit raises TypeError, a name that begins with `shape` is taken for a shape."
  },
  {
   "property": "C143",
   "status": "partial",
   "theorems": [
    "Cis.Limits.c82_unclosed_violated",
    "Cis.Limits.c82_garbage_violated"
   ],
   "note": "False (negations proved): an unclosed bracket or other text after the name is ignored and the dimension collapsed completely."
  },
  {
   "property": "C144",
   "status": "partial",
   "theorems": [
    "Cis.Distance.c84_km",
    "Cis.Distance.c84_m",
    "Cis.Distance.c84_micrometre_violated"
   ],
   "note": "Proved for units made of letters. Violated for units with other characters, which are skipped: 10µm is read as 10 m and 10% as 10 km."
  },
  {
   "property": "C145",
   "status": "partial",
   "theorems": [
    "Cis.Main.c97_subset_nothing",
    "Cis.Main.c97_missing_option_violated",
    "Cis.Main.c97_failed_save_violated"
   ],
   "note": "Proved for failures before the save. Violated (proved): a save which raises half way leaves its unfinished file in place of the earlier output; missing_data_for_missing_sample takes any other text silently as false."
  },
  {
   "property": "C146",
   "status": "partial",
   "theorems": [
    "Cis.Crash.c98_single",
    "Cis.Crash.c98_previous_lost_violated",
    "Cis.Crash.c98_unfinished_violated",
    "Cis.Crash.c98_unknown_type_violated"
   ],
   "note": "False (proved): the earlier file is always destroyed first; the variable being written is read as missing everywhere; an error in a later variable leaves a recognised, incomplete file. For a single variable the file left is unrecognised until complete (c98_single)."
  },
  {
   "property": "C147",
   "status": "partial",
   "theorems": [
    "Cis.GAttrs.c128_add",
    "Cis.GAttrs.c128_reserved_violated",
    "Cis.GAttrs.c128_remove_violated",
    "Cis.GAttrs.c128_list_local_violated",
    "Cis.GAttrs.c128_twice_violated"
   ],
   "note": "False (proved): reserved names without meaning for a cube are dropped silently; removing does not take back units or names; a list writes attributes added to all variables on the file; after adding twice and removing the name is still kept for the variable."
  },
  {
   "property": "C148",
   "status": "proved",
   "theorems": [
    "Cis.Collapse.c148_extremes",
    "Cis.Collapse.c148_sum",
    "Cis.Collapse.c148_mean",
    "Cis.Collapse.c148_latitude_first",
    "Cis.Collapse.c148_latitude_last",
    "Cis.Collapse.c148_order"
   ],
   "note": "the collapsed coordinates of the first result are modelled by `carry` (contract of Iris); the areas of its cells are a parameter"
  },
  {
   "property": "C149",
   "status": "partial",
   "theorems": [
    "Cis.Collapse.c148_mean",
    "Cis.Collapse.c148_latitude_first",
    "Cis.Collapse.c148_latitude_last",
    "Cis.Collapse.c149_missing_violated",
    "Cis.Collapse.c149_uneven_violated"
   ],
   "note": "false in general: with a missing value, or with latitude when the longitudes are not evenly spaced, steps give another mean; proved under the conditions of C148"
  },
  {
   "property": "C15",
   "status": "proved",
   "theorems": [
    "Cis.Colloc.c15_order_independent",
    "Cis.Colloc.c15_empty",
    "Cis.Colloc.c15_bounds",
    "Cis.Colloc.c15_moments",
    "Cis.Colloc.c15_stddev"
   ],
   "note": "Exact real arithmetic."
  },
  {
   "property": "C150",
   "status": "proved",
   "theorems": [
    "Cis.Interp.c150_linear",
    "Cis.Interp.c150_missing",
    "Cis.Interp.c150_nearest",
    "Cis.Interp.c150_subset"
   ],
   "note": "for the axes the code handles (C18)"
  },
  {
   "property": "C151",
   "status": "partial",
   "theorems": [
    "Cis.Interp.c150_missing",
    "Cis.Interp.c150_nearest",
    "Cis.Interp.c151_edge_violated"
   ],
   "note": "false for a point on a node at the edge of the part: the whole grid looks at the missing neighbour outside the part; proved otherwise"
  },
  {
   "property": "C152",
   "status": "proved",
   "theorems": [
    "Cis.Colloc.c152_nearest",
    "Cis.HavTree.c13_same_place"
   ],
   "note": "exact real arithmetic; for nn_horizontal the first two columns of the frames are latitude and longitude (C16); pressures positive where they are used"
  },
  {
   "property": "C153",
   "status": "partial",
   "theorems": [
    "Cis.Colloc.c153_statistics_partial",
    "Cis.Colloc.c153_poles_violated"
   ],
   "note": "proved where the tree search is exact (Spec.Good); false in general: two points at the poles, half the earth apart, are averaged with a separation of 1000 km"
  },
  {
   "property": "C154",
   "status": "proved",
   "theorems": [
    "Cis.Subset.Gridded.c154_other",
    "Cis.Subset.Gridded.c154_same",
    "Cis.Subset.Gridded.c154_nested"
   ],
   "note": "c154_nested: the second range ends before a full turn from the start of the first (the two ends of a full turn are the same meridian). Equality of results is equality of axes and of the value at every index; c154_other is equality of the results themselves."
  },
  {
   "property": "C155",
   "status": "proved",
   "theorems": [
    "Cis.Evaluate.c155_pointwise",
    "Cis.Evaluate.c155_commute",
    "Cis.Evaluate.c155_reduction_differs"
   ],
   "note": "Python's eval is modelled for names, numbers, unary and binary elementwise operations (with numpy's broadcasting of one-dimensional arrays) and reductions. c155_reduction_differs shows that the condition (no reduction such as max(a)) is needed."
  },
  {
   "property": "C156",
   "status": "proved",
   "theorems": [
    "Cis.Agg.c156_cell",
    "Cis.Agg.c156_upper_end_differs"
   ],
   "note": "c156_upper_end_differs shows that the condition on upper ends is needed."
  },
  {
   "property": "C157",
   "status": "proved",
   "theorems": [
    "Cis.RoundTrip.c157_subset_file"
   ],
   "note": "End to end: the models of subsetting (C36), saving and reading (C96) composed."
  },
  {
   "property": "C158",
   "status": "partial",
   "theorems": [
    "Cis.RoundTrip.c157_subset_file",
    "Cis.RoundTrip.c157_converted_violated"
   ],
   "note": "False in general (proved): longitudes converted to negative ones are saved beside a valid_min of 0 from the file of origin, and the points are missing when the file is read. Proved when no conversion is needed."
  },
  {
   "property": "C159",
   "status": "partial",
   "theorems": [
    "Cis.DataIndex.c04_slices_any_direction_partial",
    "Cis.DataIndex.c04_decreasing_violated",
    "Cis.Interp.c18_descending_violated",
    "Cis.Interp.c18_descending_1d_violated",
    "Cis.Interp.c18_circular_descending_violated",
    "Cis.Agg.aggregate_decreasing_violated"
   ],
   "note": "False in general: each theorem named _violated proves a counterexample or a whole class of them. What holds, with exact conditions, is proved under C04, C18, C19, C40."
  },
  {
   "property": "C16",
   "status": "proved",
   "theorems": [
    "Cis.Colloc.c16_nearest",
    "Cis.Colloc.c16_nearest_horizontal"
   ],
   "note": "Pressures positive."
  },
  {
   "property": "C160",
   "status": "partial",
   "theorems": [
    "Cis.DataIndex.c04_empty_violated",
    "Cis.DataIndex.c05_single_cell_violated",
    "Cis.Colloc.c17_empty_data_violated",
    "Cis.Interp.c18_single_node_violated",
    "Cis.Subset.subset_list_empty_violated",
    "Cis.Agg.aggregate_no_data_violated",
    "Cis.Coords.c45_get_coord_single_violated",
    "Cis.Coords.c45_find_standard_coords_violated",
    "Cis.Coords.c66_lookup_single_violated",
    "Cis.Ungridded.c68_points_round_trip_violated",
    "Cis.Ungridded.c70_coords_size_violated",
    "Cis.Meta.c103_summary_violated",
    "Cis.AggApi.c106_constant_violated",
    "Cis.Ascii.c115_one_point_violated",
    "Cis.Agg.c131_empty_violated",
    "Cis.CollapseCmd.c187_single_violated",
    "Cis.Listing.c160_cloudsat_no_profiles_violated"
   ],
   "note": "False in general: each theorem named _violated proves a counterexample or a whole class of them. What holds, with exact conditions, is proved under C04, C05, C17, C18, C38, C40, C45, C66, C68, C70, C103, C106, C115, C131."
  },
  {
   "property": "C161",
   "status": "partial",
   "theorems": [
    "Cis.Colloc.c14_zero_violated",
    "Cis.Colloc.c14_boundary_violated",
    "Cis.Masks.bin_edges_zero_violated",
    "Cis.Masks.bin_edges_last_violated",
    "Cis.AggApi.c106_default_violated",
    "Cis.AggApi.c106_period_violated",
    "Cis.Regress.c120_relative_violated",
    "Cis.Agg.c131_coarsen_violated"
   ],
   "note": "False in general: each theorem named _violated proves a counterexample or a whole class of them. What holds, with exact conditions, is proved under C14, C55, C106, C120, C131."
  },
  {
   "property": "C162",
   "status": "partial",
   "theorems": [
    "Cis.Lon.c23_range_violated",
    "Cis.Lon.c23_aux_bounds_violated",
    "Cis.Subset.subset_longitude_across_violated",
    "Cis.Subset.subset_longitude_beyond_violated",
    "Cis.Subset.subset_longitude_dateline_violated",
    "Cis.Agg.c40_clip_violated",
    "Cis.Hyper.c69_view_longitude_violated",
    "Cis.AggApi.c106_longitude_violated",
    "Cis.AggApi.c106_longitude_zero_violated",
    "Cis.Subset.c129_violated",
    "Cis.Subset.c129_mixed_violated"
   ],
   "note": "False in general: each theorem named _violated proves a counterexample or a whole class of them. What holds, with exact conditions, is proved under C23, C37, C40, C69, C106, C129."
  },
  {
   "property": "C163",
   "status": "partial",
   "theorems": [
    "Cis.HavTree.c13_query_ball_tree_partial",
    "Cis.HavTree.c13_same_place",
    "Cis.Colloc.c17_values_partial",
    "Cis.Colloc.c17_tree_partial",
    "Cis.HavTree.c13_high_latitude_violated",
    "Cis.HavTree.c13_date_line_violated",
    "Cis.HavTree.c13_too_far_violated",
    "Cis.Colloc.c17_date_line_violated",
    "Cis.Colloc.c130_sample_violated",
    "Cis.Colloc.c130_far_violated"
   ],
   "note": "False in general: each theorem named _violated proves a counterexample or a whole class of them. What holds, with exact conditions, is proved under C13, C17, C130."
  },
  {
   "property": "C164",
   "status": "partial",
   "theorems": [
    "Cis.Colloc.c16_horizontal_violated",
    "Cis.Agg.collapse_coord_violated",
    "Cis.Agg.collapse_coord_error_violated",
    "Cis.Hyper.c53_gridded_iter_violated",
    "Cis.Hyper.c53_gridded_anonymous_violated",
    "Cis.Hyper.c53_gridded_wrong_dimension_violated",
    "Cis.Hyper.c53_no_latitude_violated",
    "Cis.Interp.c60_skipped_dimension_violated",
    "Cis.Agg.unmapped_index_violated",
    "Cis.GridColloc.c74_scalar_coordinate_violated",
    "Cis.Subset.Gridded.c83_shape_transposed_violated",
    "Cis.Gridded.c95_wrong_dimension_violated",
    "Cis.Gridded.c95_left_out_violated",
    "Cis.Gridded.c95_scalar_time_violated",
    "Cis.Gridded.c95_auxiliary_time_violated",
    "Cis.Gridded.c95_coords_violated",
    "Cis.Gridded.c95_shared_name_violated"
   ],
   "note": "False in general: each theorem named _violated proves a counterexample or a whole class of them. What holds, with exact conditions, is proved under C16, C41, C53, C60, C64, C74, C83, C95."
  },
  {
   "property": "C165",
   "status": "partial",
   "theorems": [
    "Cis.Time.c24_last_second_violated",
    "Cis.Time.c24_overflow_violated",
    "Cis.Time.c27_time_of_day_violated",
    "Cis.Cci.c94_repair_violated",
    "Cis.Cci.c94_ambiguous_violated",
    "Cis.ModisL3.c105_today_violated",
    "Cis.ModisL3.c105_number_violated",
    "Cis.ModisL3.c105_two_values_violated",
    "Cis.ModisL3.c105_unbounded_violated",
    "Cis.Time.Convert.c110_repeated_violated",
    "Cis.Time.Convert.c110_twice_violated",
    "Cis.Ascii.c115_time_violated",
    "Cis.Time.c26_fraction_violated"
   ],
   "note": "False in general: each theorem named _violated proves a counterexample or a whole class of them. What holds, with exact conditions, is proved under C24, C27, C94, C105, C110, C115, C26."
  },
  {
   "property": "C166",
   "status": "partial",
   "theorems": [
    "Cis.Parse.colon_backslash_violated",
    "Cis.Parse.split_outside_trailing_violated",
    "Cis.Parse.multi_split_blank_violated",
    "Cis.Parse.single_option_unchecked_violated",
    "Cis.Method.c85_equals_violated",
    "Cis.Method.c85_empty_brackets_violated",
    "Cis.Method.c85_repeated_violated",
    "Cis.Args.c111_levels_violated",
    "Cis.Args.c111_attributes_violated",
    "Cis.Args.c111_dimensions_violated",
    "Cis.Args.c111_stats_refused_violated",
    "Cis.Args.c111_stats_accepted_violated",
    "Cis.Args.c111_kernel_ungridded_violated",
    "Cis.Args.c111_kernel_gridded_violated",
    "Cis.GlobalOptions.c123_before_violated",
    "Cis.GlobalOptions.c123_force_before_violated",
    "Cis.GlobalOptions.c123_very_verbose_violated",
    "Cis.GlobalOptions.c123_exclusive_violated",
    "Cis.GlobalOptions.c123_sticky_violated",
    "Cis.Datagroups.c124_product_violated",
    "Cis.Datagroups.c124_nocolourbar_violated"
   ],
   "note": "False in general: each theorem named _violated proves a counterexample or a whole class of them. What holds, with exact conditions, is proved under C29, C30, C31, C61, C85, C111, C123, C124."
  },
  {
   "property": "C167",
   "status": "partial",
   "theorems": [
    "Cis.Interp.c18_masked_neighbour_violated",
    "Cis.Ungridded.c43_object_violated",
    "Cis.Read.c75_missing_not_masked_violated",
    "Cis.Subset.Gridded.c83_shape_masked_violated",
    "Cis.Subset.Gridded.c83_shape_unmasks_violated",
    "Cis.RoundTrip.c96_missing_violated",
    "Cis.Frame.c104_time_violated",
    "Cis.Ascii.c115_unreadable_violated",
    "Cis.Hyper.Assign.c116_missing_violated"
   ],
   "note": "False in general: each theorem named _violated proves a counterexample or a whole class of them. What holds, with exact conditions, is proved under C18, C43, C75, C83, C96, C104, C115, C116."
  },
  {
   "property": "C168",
   "status": "partial",
   "theorems": [
    "Cis.Subset.subset_list_shape_violated",
    "Cis.Subset.subset_list_coords_violated",
    "Cis.Ungridded.c43_shared_coords_violated",
    "Cis.Ungridded.c43_stale_points_violated",
    "Cis.Lazy.c44_stale_flat_violated",
    "Cis.Lazy.c44_lon_range_violated",
    "Cis.DataList.c46_shapes_violated",
    "Cis.DataList.c46_values_violated",
    "Cis.Evaluate.c48_coord_shape_violated",
    "Cis.Colloc.c57_reindex_violated",
    "Cis.Interp.c72_two_grids_violated",
    "Cis.Interp.c72_other_points_violated",
    "Cis.Lon.Sharing.c108_shared_violated",
    "Cis.Lon.Sharing.c108_outputs_violated",
    "Cis.Files.c109_read_violated",
    "Cis.Files.c109_class_violated",
    "Cis.Files.c109_collapse_violated",
    "Cis.Inputs.c113_sample_changed_violated",
    "Cis.Inputs.c113_result_violated",
    "Cis.Inputs.c113_bounds_violated",
    "Cis.Inputs.c113_dummy_violated",
    "Cis.Hyper.Assign.c116_data_violated",
    "Cis.Share.c117_attributes_violated",
    "Cis.Share.c117_result_shape_violated",
    "Cis.Share.c117_result_write_violated"
   ],
   "note": "False in general: each theorem named _violated proves a counterexample or a whole class of them. What holds, with exact conditions, is proved under C38, C43, C44, C46, C48, C57, C72, C108, C109, C113, C116, C117."
  },
  {
   "property": "C169",
   "status": "partial",
   "theorems": [
    "Cis.Coords.c45_get_coord_criteria_violated",
    "Cis.Coords.c45_get_coord_attribute_error_violated",
    "Cis.Coords.c45_append_unnamed_violated",
    "Cis.Write.save_clash_violated",
    "Cis.Agg.output_coords_violated",
    "Cis.Coords.c65_copy_violated",
    "Cis.Reader.c79_shifted_alias_violated",
    "Cis.Reader.c79_extra_alias_violated",
    "Cis.Reader.c79_bracket_violated",
    "Cis.Reader.c79_bracket_other_violated",
    "Cis.Aeronet.c80_counter_clash_violated",
    "Cis.Aeronet.c80_removed_clash_violated",
    "Cis.RoundTrip.c96_variable_becomes_coordinate_violated",
    "Cis.RoundTrip.c96_other_coordinate_violated",
    "Cis.RoundTrip.c96_unnamed_coordinate_violated",
    "Cis.Meta.c103_guess_violated",
    "Cis.Meta.c103_hash_violated",
    "Cis.Frame.c104_unnamed_violated",
    "Cis.Frame.c104_replaced_violated",
    "Cis.Frame.c104_same_name_violated",
    "Cis.AggApi.c106_unknown_violated",
    "Cis.AggApi.c106_repeated_violated"
   ],
   "note": "False in general: each theorem named _violated proves a counterexample or a whole class of them. What holds, with exact conditions, is proved under C45, C51, C63, C65, C79, C80, C96, C103, C104, C106."
  },
  {
   "property": "C17",
   "status": "proved",
   "theorems": [
    "Cis.Colloc.c17_no_horizontal",
    "Cis.Colloc.c17_statistics"
   ],
   "note": "For the collocator as it is. nn_horizontal needs latitude and longitude as first columns (C16)."
  },
  {
   "property": "C170",
   "status": "partial",
   "theorems": [
    "Cis.Maths.c47_unary_in_place_violated",
    "Cis.Maths.c47_power_in_place_violated",
    "Cis.Collapse.c102_sum_violated",
    "Cis.Collapse.c102_unweighable_violated",
    "Cis.Collapse.c102_input_violated",
    "Cis.Collapse.c102_name_violated",
    "Cis.Collapse.c102_kernel_violated"
   ],
   "note": "False in general: each theorem named _violated proves a counterexample or a whole class of them. What holds, with exact conditions, is proved under C47, C102."
  },
  {
   "property": "C171",
   "status": "partial",
   "theorems": [
    "Cis.Lazy.c44_crash_violated",
    "Cis.DataList.c46_extend_violated",
    "Cis.ListOps.c112_partly_violated",
    "Cis.ListOps.c112_repeated_violated",
    "Cis.ListOps.c112_extract_none_violated",
    "Cis.Errors.c114_no_args_violated",
    "Cis.Errors.c114_memory_violated",
    "Cis.Errors.c114_format_error_violated",
    "Cis.Errors.c114_mixed_violated",
    "Cis.Errors.c114_info_pattern_violated",
    "Cis.Hyper.Assign.c116_failed_violated",
    "Cis.Hyper.Assign.c116_gridded_coordinates_violated",
    "Cis.Hdf4.c125_error_violated",
    "Cis.Hdf4.c125_listing_violated",
    "Cis.Hdf4.c125_vd_get_violated",
    "Cis.Hdf4.c125_vd_read_violated",
    "Cis.Hdf4.c125_shape_violated",
    "Cis.Errors.c114_user_printable_violated"
   ],
   "note": "False in general: each theorem named _violated proves a counterexample or a whole class of them. What holds, with exact conditions, is proved under C44, C46, C112, C114, C116, C125."
  },
  {
   "property": "C172",
   "status": "partial",
   "theorems": [
    "Cis.Read.c75_packed_integers_violated",
    "Cis.Read.c75_rounded_limits_violated",
    "Cis.Read.c75_cloudsat_missop_violated",
    "Cis.RoundTrip.c96_limits_violated",
    "Cis.Attrs.c127_calendar_violated",
    "Cis.Attrs.c127_remove_violated",
    "Cis.Attrs.c127_invalid_violated",
    "Cis.Attrs.c127_no_units_violated",
    "Cis.Attrs.c127_text_missing_violated",
    "Cis.Attrs.c127_units_violated"
   ],
   "note": "False in general: each theorem named _violated proves a counterexample or a whole class of them. What holds, with exact conditions, is proved under C75, C96, C127."
  },
  {
   "property": "C173",
   "status": "partial",
   "theorems": [
    "Cis.Read.c77_mixed_kinds_violated",
    "Cis.Read.c77_vdata_not_listed_violated",
    "Cis.Read.c87_altitudes_violated",
    "Cis.Read.c87_shape_violated",
    "Cis.Read.Raf.c92_blank_altitude_violated",
    "Cis.Read.Raf.c92_auxiliary_itself_violated",
    "Cis.Read.Raf.c92_scalar_variable_violated",
    "Cis.Read.Raf.c92_transposed_violated",
    "Cis.Read.Raf.c92_second_file_violated",
    "Cis.EarthCare.c93_two_digits_violated",
    "Cis.EarthCare.c93_other_position_violated",
    "Cis.EarthCare.c93_two_dimensions_violated",
    "Cis.EarthCare.c93_other_files_violated",
    "Cis.EarthCare.c93_track_second_violated",
    "Cis.EarthCare.c93_track_second_shape_violated",
    "Cis.AeronetLoad.c101_empty_violated",
    "Cis.AeronetLoad.c101_date_violated",
    "Cis.AeronetLoad.c101_altitude_violated",
    "Cis.AeronetLoad.c101_units_violated",
    "Cis.Listing.c107_some_files_violated",
    "Cis.Listing.c107_first_shape_violated",
    "Cis.Listing.c107_bands_violated",
    "Cis.Listing.c107_caliop_special_violated",
    "Cis.Listing.c107_cloudsat_violated",
    "Cis.Listing.c107_extension_violated",
    "Cis.Together.c118_history_violated",
    "Cis.Together.c118_mixed_violated",
    "Cis.Together.c118_history_lost_violated",
    "Cis.Together.c118_attributes_violated",
    "Cis.Together.c118_pp_blank_violated",
    "Cis.Together.c118_construct_violated"
   ],
   "note": "False in general: each theorem named _violated proves a counterexample or a whole class of them. What holds, with exact conditions, is proved under C77, C87, C92, C93, C101, C107, C118."
  },
  {
   "property": "C174",
   "status": "partial",
   "theorems": [
    "Cis.Plot.c86_2d_violated",
    "Cis.Plot.c86_log_violated",
    "Cis.Plot.c86_mask_violated",
    "Cis.Plot.c88_type_violated",
    "Cis.Plot.c88_single_violated",
    "Cis.Plot.c88_variables_violated",
    "Cis.Plot.c88_comparative_violated",
    "Cis.Plot.c88_yaxis_violated",
    "Cis.Plot.c89_unknown_name_violated",
    "Cis.Plot.c89_two_dim_violated",
    "Cis.Plot.Mesh.c90_square_violated",
    "Cis.Plot.Mesh.c90_extra_violated",
    "Cis.Plot.Mesh.c90_cells_shape_violated",
    "Cis.Plot.Mesh.c90_cells_swapped_violated",
    "Cis.Plot.Mesh.c90_cells_square_violated",
    "Cis.Plot.c91_inverted_violated",
    "Cis.Plot.c91_no_longitude_violated",
    "Cis.Plot.c91_step_violated",
    "Cis.Hist.c99_coord_violated",
    "Cis.Hist.c99_yaxis_violated",
    "Cis.TimeAxis.c121_2d_violated",
    "Cis.TimeAxis.c121_2d_limits_violated",
    "Cis.TimeAxis.c121_old_matplotlib_violated",
    "Cis.TimeAxis.c121_subsecond_violated",
    "Cis.TimeAxis.c121_step_violated",
    "Cis.MapLimits.c122_opposite_violated",
    "Cis.MapLimits.c122_data_lost_violated",
    "Cis.MapLimits.c122_edge_violated",
    "Cis.MapLimits.c122_step_violated",
    "Cis.MapLimits.c122_pole_violated",
    "Cis.MapLimits.c122_autoscale_violated",
    "Cis.Plot.TaylorDraw.c126_radius_violated",
    "Cis.Plot.TaylorDraw.c126_size_zero_violated",
    "Cis.Plot.TaylorDraw.c126_single_violated",
    "Cis.Plot.TaylorDraw.c126_markers_violated"
   ],
   "note": "False in general: each theorem named _violated proves a counterexample or a whole class of them. What holds, with exact conditions, is proved under C86, C88, C89, C90, C91, C99, C121, C122, C126."
  },
  {
   "property": "C175",
   "status": "partial",
   "theorems": [
    "Cis.Plugin.c50_abstract_violated",
    "Cis.Plugin.c50_first_file_violated"
   ],
   "note": "False in general: each theorem named _violated proves a counterexample or a whole class of them. What holds, with exact conditions, is proved under C50."
  },
  {
   "property": "C176",
   "status": "partial",
   "theorems": [
    "Cis.Hyper.c42_modified_time_violated",
    "Cis.Hyper.c42_modified_val_violated"
   ],
   "note": "False in general: each theorem named _violated proves a counterexample or a whole class of them. What holds, with exact conditions, is proved under C42."
  },
  {
   "property": "C177",
   "status": "partial",
   "theorems": [
    "Cis.Fp.c132_changed_violated",
    "Cis.Fp.c132_idempotent_violated",
    "Cis.Fp.c132_order_violated",
    "Cis.Fp.Grid.c133_cells_violated",
    "Cis.Fp.Kernel.c134_altitude_violated",
    "Cis.Fp.Kernel.c134_nearest_violated",
    "Cis.Fp.Time.c136_distinct_violated",
    "Cis.Fp.Time.c136_limit_violated",
    "Cis.Fp.Kernel.c135_equal_violated",
    "Cis.Fp.Kernel.c135_order_violated",
    "Cis.Fp.Interp.c138_constant_violated",
    "Cis.Fp.Interp.c138_nearest_violated"
   ],
   "note": "False in general: each theorem named _violated proves a counterexample or a whole class of them. What holds, with exact conditions, is proved under C132, C133, C134, C136, C135, C138."
  },
  {
   "property": "C178",
   "status": "proved",
   "theorems": [
    "Cis.ColOpts.c178_box",
    "Cis.ColOpts.c178_accepted",
    "Cis.ColOpts.c178_kernel",
    "Cis.ColOpts.c178_work",
    "Cis.ColOpts.c178_box_results",
    "Cis.ColOpts.c178_distinct",
    "Cis.ColOpts.c178_named_results",
    "Cis.ColOpts.c178_flag"
   ],
   "note": "From the text of the option (C85) through col_cmd, sampled_from and the constructors to the plan of work and the names of the results; float() is a parameter."
  },
  {
   "property": "C179",
   "status": "partial",
   "theorems": [
    "Cis.ColOpts.c179_extrapolate_violated",
    "Cis.ColOpts.c179_ignored_violated",
    "Cis.ColOpts.c179_box_grid_violated",
    "Cis.ColOpts.c179_table_violated",
    "Cis.ColOpts.c179_box_names_violated",
    "Cis.ColOpts.c179_grid_names_violated",
    "Cis.ColOpts.c179_moments_violated",
    "Cis.ColOpts.c179_values_violated",
    "Cis.ColOpts.c179_clash_violated",
    "Cis.ColOpts.c179_months_violated"
   ],
   "note": "False of the code: the counterexamples are proved for all values of the options concerned. What holds is C178."
  },
  {
   "property": "C18",
   "status": "proved",
   "theorems": [
    "Cis.Interp.c18_node",
    "Cis.Interp.c18_affine",
    "Cis.Interp.c18_bounds"
   ],
   "note": "Any rank."
  },
  {
   "property": "C180",
   "status": "proved",
   "theorems": [
    "Cis.SubsetCmd.c180_subset",
    "Cis.SubsetCmd.c180_longitude",
    "Cis.SubsetCmd.c180_partial_date",
    "Cis.SubsetCmd.c180_unknown",
    "Cis.SubsetCmd.c66_lookup_stands_for"
   ],
   "note": "From the text of the limits to the points kept, for one ungridded variable. float(), num2date and the day of the call are parameters; dateutil is modelled for the documented form of dates. Shapes: C36."
  },
  {
   "property": "C181",
   "status": "partial",
   "theorems": [
    "Cis.SubsetCmd.c181_single_violated",
    "Cis.SubsetCmd.c181_single_open_violated",
    "Cis.SubsetCmd.c181_range_dates_violated",
    "Cis.SubsetCmd.c181_today_violated",
    "Cis.SubsetCmd.c181_open_dates_violated",
    "Cis.SubsetCmd.c181_names_violated"
   ],
   "note": "False of the code: a single value leaves the range open, components of dates that are not written are those of the current day, ranges of dates cannot be open, of two limits on a coordinate one is lost. What holds is C180."
  },
  {
   "property": "C182",
   "status": "proved",
   "theorems": [
    "Cis.AggCmd.c182_aggregate",
    "Cis.AggCmd.c182_infinite"
   ],
   "note": "dateutil.parser.parse is modelled for whole dates YYYY-MM-DD[{T| }hh[:mm[:ss]]]; float() is a parameter. Longitude grids under the conditions of C106."
  },
  {
   "property": "C183",
   "status": "partial",
   "theorems": [
    "Cis.AggCmd.c183_collapse_violated",
    "Cis.AggCmd.c183_step_violated",
    "Cis.AggCmd.c183_year_violated",
    "Cis.AggCmd.c183_range_dates_violated",
    "Cis.AggCmd.c183_calendar_violated"
   ],
   "note": "False (negations proved): a bare name makes the command fail for all ungridded data (len(None)); a missing step is refused; a year alone is a number of days; other partial dates are completed by the day of the call; months are 30 days."
  },
  {
   "property": "C184",
   "status": "proved",
   "theorems": [
    "Cis.ColCmd.c184_collocate"
   ],
   "note": "Composes C178 (options) with C17 (values): the data are those for which C17 proves the search exact; float() is a parameter; reading and saving are C160-C163 and C18."
  },
  {
   "property": "C185",
   "status": "proved",
   "theorems": [
    "Cis.StatsCmd.c185_accepted",
    "Cis.StatsCmd.c185_complete",
    "Cis.StatsCmd.c185_unique",
    "Cis.StatsCmd.c185_values",
    "Cis.StatsCmd.c185_relative",
    "Cis.StatsCmd.c185_line",
    "Cis.StatsCmd.c185_rank",
    "Cis.StatsCmd.c185_points_only",
    "Cis.StatsCmd.c185_exact_line",
    "Cis.StatsCmd.c185_self",
    "Cis.StatsCmd.c185_exchange",
    "Cis.StatsCmd.c185_described"
   ],
   "note": "Real numbers; scipy's spearmanr and linregress by their formulas (C119); numbers are printed by a parameter; the history added to the file is left out."
  },
  {
   "property": "C186",
   "status": "proved",
   "theorems": [
    "Cis.EvalCmd.c186_evaluate",
    "Cis.EvalCmd.c186_same_name"
   ],
   "note": "The expression comes parsed (Python's parser is not modelled); operators of one and two operands that work element by element, over any type of values. Files are an abstract archive; writing the file is C25/C56."
  },
  {
   "property": "C187",
   "status": "proved",
   "theorems": [
    "Cis.CollapseCmd.c187_collapse",
    "Cis.CollapseCmd.c187_unknown"
   ],
   "note": "Over the contract of Cube.coord, Cube.collapsed and area_weights of Iris; reading is a parameter. Standard deviations are given by their squares."
  },
  {
   "property": "C188",
   "status": "proved",
   "theorems": [
    "Cis.SubsetGrid.c188_subset",
    "Cis.SubsetGrid.c188_open",
    "Cis.SubsetGrid.c188_unknown"
   ],
   "note": "One coordinate without bounds per dimension; shapes are in C83; extract and intersection of Iris are modelled by their documented effect; float() and dateutil for other than the documented forms are parameters."
  },
  {
   "property": "C189",
   "status": "partial",
   "theorems": [
    "Cis.SubsetGrid.c189_latitude_violated",
    "Cis.SubsetGrid.c189_first_violated",
    "Cis.SubsetGrid.c189_open_dates_violated"
   ],
   "note": "General statement false of the code: latitudes have units with a modulus, so lat=[280,300] selects and relabels southern latitudes; open ends are those of the first variable; a range of dates with an open end is always a TypeError. What holds is C188."
  },
  {
   "property": "C19",
   "status": "proved",
   "theorems": [
    "Cis.Interp.c19_nearest"
   ],
   "note": "Any rank, circular axes included, also when extrapolating."
  },
  {
   "property": "C190",
   "status": "partial",
   "theorems": [
    "Cis.Evaluate.c190_documented_violated"
   ],
   "note": "General statement false of the code: cmp, reduce and xrange are not known; proved for all data that exactly these three are missing."
  },
  {
   "property": "C191",
   "status": "proved",
   "theorems": [
    "Cis.InterpCmd.c191_collocate"
   ],
   "note": "Composes C178 (options), C72 (variables in turn) and C18-C20 (values), for one grid, axes with two nodes or more that the interpolator handles, a sample mask with an entry for each point (C192 for others), longitudes in one range already (C21), and no hybrid heights (C45). float() is a parameter."
  },
  {
   "property": "C192",
   "status": "partial",
   "theorems": [
    "Cis.InterpCmd.c192_missing_partial",
    "Cis.InterpCmd.c192_missing_violated",
    "Cis.InterpCmd.c192_nomask_violated",
    "Cis.InterpCmd.c192_coordinates_violated"
   ],
   "note": "The full statement is MissingOnly. It holds for plain arrays and for masks with an entry for each point; a masked array without mask (as concatenating the data of several files gives) fails for any number of points but one, and so do coordinates without data, for which collocated_onto passes the flag by default."
  },
  {
   "property": "C193",
   "status": "proved",
   "theorems": [
    "Cis.BinCmd.c193_collocate",
    "Cis.BinCmd.c193_refused"
   ],
   "note": ""
  },
  {
   "property": "C194",
   "status": "partial",
   "theorems": [
    "Cis.BinCmd.c194_greenwich_violated",
    "Cis.BinCmd.c194_single_violated",
    "Cis.BinCmd.c194_scalar_violated"
   ],
   "note": "False in general: each theorem named _violated proves a whole class of counterexamples (every global grid with a column at Greenwich; every sample with a used coordinate of one point without bounds; every sample variable with a coordinate that belongs to no dimension). What holds, with exact conditions, is proved under C193."
  },
  {
   "property": "C195",
   "status": "proved",
   "theorems": [
    "Cis.GridCmd.c195_collocate",
    "Cis.GridCmd.c195_nodes",
    "Cis.GridCmd.c195_self"
   ],
   "note": "The interpolation of iris is a parameter (for c195_nodes and c195_self: one that gives the values of the nodes at the nodes). Refused options and kernels are C178."
  },
  {
   "property": "C196",
   "status": "partial",
   "theorems": [
    "Cis.GridCmd.c196_dimensions_violated",
    "Cis.GridCmd.c196_scalar_violated",
    "Cis.GridCmd.c196_dateline_violated",
    "Cis.GridCmd.c196_west_violated",
    "Cis.GridCmd.c196_order_violated"
   ],
   "note": "The general statement is false of the code: variables with different numbers of dimensions are refused together; a scalar longitude of the data ends the command; 180 degrees on a sample with negative longitudes is always missing; data at negative longitudes only are lost on a sample from 0 to 360; and the mask is transposed for a second variable with its dimensions in another order. What holds is C195."
  },
  {
   "property": "C197",
   "status": "proved",
   "theorems": [
    "Cis.AggCmd.c197_aggregate",
    "Cis.AggCmd.c197_files",
    "Cis.AggApi.c197_api",
    "Cis.BinCmd.c197_bin",
    "Cis.StatsCmd.c197_stats"
   ],
   "note": "For all inputs including malformed grid arguments; in exact arithmetic (rounding of sums: C135)."
  },
  {
   "property": "C198",
   "status": "proved",
   "theorems": [
    "Cis.SubsetCmd.c198_rows",
    "Cis.SubsetCmd.c198_files",
    "Cis.SubsetCmd.c198_twice",
    "Cis.SubsetCmd.c198_all_data",
    "Cis.SubsetCmd.c198_conventions_violated"
   ],
   "note": "For limits with two ends for longitudes, in the convention of the data (both at most 180 or both at least 0); c198_conventions_violated shows that this is needed: the convention of all files together decides whether longitudes are converted, so that files in different conventions keep fewer points together than each alone. Limits of other coordinates may be open. Shapes are not included (C36, C140)."
  },
  {
   "property": "C199",
   "status": "proved",
   "theorems": [
    "Cis.InfoCmd.c199_variables",
    "Cis.InfoCmd.c199_no_product",
    "Cis.InfoCmd.c199_files",
    "Cis.InfoCmd.c199_netcdf",
    "Cis.InfoCmd.c199_hdf",
    "Cis.InfoCmd.c199_product_needs_variable"
   ],
   "note": "End to end: the models of the datagroup (C124), the choice of the product (C49), the listing (C107) and the reporting of errors (C114) composed. What a product's methods give for a file is a parameter, apart from the general listing. Exceptions without arguments: C171."
  },
  {
   "property": "C20",
   "status": "proved",
   "theorems": [
    "Cis.Interp.c20_no_extrapolation",
    "Cis.Interp.c20_missing_sample"
   ],
   "note": "For every call that returns (monotonic axes in either direction, both methods)."
  },
  {
   "property": "C200",
   "status": "partial",
   "theorems": [
    "Cis.InfoCmd.c200_default_type_violated"
   ],
   "note": "False of the code for every list of HDF files read by a product with the general listing: the default is SD, and All is refused with an error. What holds is C199."
  },
  {
   "property": "C201",
   "status": "proved",
   "theorems": [
    "Cis.Colloc.c201_wider",
    "Cis.Colloc.c201_plain",
    "Cis.HavTree.c201_ball_point"
   ],
   "note": ""
  },
  {
   "property": "C202",
   "status": "proved",
   "theorems": [
    "Cis.Colloc.c202_collocate",
    "Cis.Agg.c202_aggregate",
    "Cis.Agg.c202_bin",
    "Cis.Collapse.c202_collapse",
    "Cis.Interp.c202_interpolate",
    "Cis.Interp.c202_hybrid"
   ],
   "note": "Exact arithmetic. The kernels median, gmean, hmean and peak of Iris are parameters of the model and not covered."
  },
  {
   "property": "C203",
   "status": "proved",
   "theorems": [
    "Cis.Plot.Command.c203_style",
    "Cis.Plot.Command.c203_drawn",
    "Cis.Plot.Command.c203_colourbar",
    "Cis.Plot.Command.c203_no_colourbar",
    "Cis.Plot.Command.c203_contour",
    "Cis.Plot.Command.c203_coastlines",
    "Cis.Plot.Command.c203_style_refused",
    "Cis.Plot.Command.c203_labels",
    "Cis.Plot.Command.c203_own_labels",
    "Cis.Plot.Command.c203_output",
    "Cis.Plot.Command.c203_layer",
    "Cis.Plot.Command.c203_single",
    "Cis.Plot.Command.c203_limits",
    "Cis.Plot.Command.c203_log"
   ],
   "note": ""
  },
  {
   "property": "C204",
   "status": "partial",
   "theorems": [
    "Cis.Plot.Command.c204_ignored_violated",
    "Cis.Plot.Command.c204_histogram2d_logv_violated",
    "Cis.Plot.Command.c204_edgecolor_violated",
    "Cis.Plot.Command.c204_bluemarble_violated",
    "Cis.Plot.Command.c204_map_log_violated",
    "Cis.Plot.Command.c204_cbarscale_violated"
   ],
   "note": "False in general: each theorem named _violated proves a whole class of counterexamples. What holds is C203."
  },
  {
   "property": "C205",
   "status": "proved",
   "theorems": [
    "Cis.Colloc.c205_collocate",
    "Cis.Colloc.c205_constrain",
    "Cis.Agg.c205_bin",
    "Cis.Agg.c205_aggregate",
    "Cis.Agg.c205_grid",
    "Cis.Interp.c205_interpolate",
    "Cis.Subset.c205_subset"
   ],
   "note": "Exact arithmetic. For nn_horizontal the columns looked at are assumed to be latitude and longitude. Rotating longitudes is not such a change (C163)."
  },
  {
   "property": "C206",
   "status": "proved",
   "theorems": [
    "c206_subset",
    "c206_unknown",
    "c206_refused",
    "c206_command"
   ],
   "note": "Shapes are C36/C140; longitudes need both ends, as in C180; a PartialDateTime as one of two ends is a TypeError, reported without its order relative to other errors."
  },
  {
   "property": "C207",
   "status": "partial",
   "theorems": [
    "c207_examples",
    "c207_end_of_day_violated",
    "c207_second_date_violated",
    "c207_open_date_violated"
   ],
   "note": "Proved: periods and open ranges of numbers as documented (generally by c206_subset). Violated: the second datetime is an instant, not the end of its day; None beside a datetime is always an error."
  },
  {
   "property": "C208",
   "status": "proved",
   "theorems": [
    "Cis.Concurrent.c208_interleaving",
    "Cis.Concurrent.c208_alone",
    "Cis.Concurrent.c208_refused",
    "Cis.Concurrent.c208_side_by_side",
    "Cis.Concurrent.c208_again",
    "Cis.Concurrent.c208_nothing"
   ],
   "note": "For all families of commands, disks and schedules; the operation of a command is an arbitrary function of the contents of its inputs. Saving of gridded data (one iris call) and HDF5 locks are not modelled."
  },
  {
   "property": "C209",
   "status": "partial",
   "theorems": [
    "Cis.Concurrent.c209_consent_violated",
    "Cis.Concurrent.c209_mixed_violated",
    "Cis.Concurrent.c209_unfinished_violated"
   ],
   "note": "The general statement is false of the code: for every pair of commands with one output there is a schedule in which a finished output is replaced without consent; for every pair with one variable of one name there is a schedule in which both succeed and the file has the coordinates of one with the values of the other; for every command that reads the output of another and every number of variables there is a schedule in which it goes on with that many of them."
  },
  {
   "property": "C21",
   "status": "proved",
   "theorems": [
    "Cis.Lon.c21_fix_longitude_range",
    "Cis.Lon.c21_fix_longitude_range_idempotent",
    "Cis.Lon.c21_common_window"
   ],
   "note": "Exact arithmetic; includes the choice of a common window before ungridded collocation."
  },
  {
   "property": "C210",
   "status": "proved",
   "theorems": [
    "Cis.Concurrent.c210_interleaving",
    "Cis.Concurrent.c210_same_as_script",
    "Cis.Concurrent.c210_progress",
    "Cis.Concurrent.c210_completes"
   ],
   "note": "For all scripts, disks and schedules. What happens when the dependencies are not heeded is C209."
  },
  {
   "property": "C211",
   "status": "proved",
   "theorems": [
    "Cis.RoundTrip.c211_resave",
    "Cis.RoundTrip.c211_reread",
    "Cis.RoundTrip.c211_analysis",
    "Cis.RoundTrip.c211_subset_blind",
    "Cis.RoundTrip.c211_two_subsets",
    "Cis.RoundTrip.c211_script"
   ],
   "note": "For all data that satisfy the conditions of C96 at each step; without them see the violations of C96 and C157. Exact arithmetic."
  },
  {
   "property": "C212",
   "status": "proved",
   "theorems": [
    "Cis.RoundTrip.c212_eval_blind",
    "Cis.RoundTrip.c212_eval_file",
    "Cis.RoundTrip.c212_subset_eval",
    "Cis.RoundTrip.c212_eval_subset"
   ],
   "note": "Without attributes given by the user; the names of files and the time in the history are parameters. Exact arithmetic."
  },
  {
   "property": "C213",
   "status": "proved",
   "theorems": [
    "Cis.RoundTrip.c213_col_file",
    "Cis.RoundTrip.c213_through_files"
   ],
   "note": "fill_value must be given: the default, NaN, is written and masked by the library and not modelled"
  },
  {
   "property": "C214",
   "status": "proved",
   "theorems": [
    "Cis.RoundTrip.c214_col_grid_file"
   ],
   "note": "The grid is given in the range of longitudes of the sample (C23 says what the code makes of other grids). A fill value must be given: without one the results have infinity as fill value (C96). NaN in the grid and hybrid height or pressure are not modelled."
  },
  {
   "property": "C215",
   "status": "proved",
   "theorems": [
    "Cis.RoundTrip.c215_subset_data",
    "Cis.RoundTrip.c215_subset_data_files",
    "Cis.RoundTrip.c215_subset_sample"
   ],
   "note": "The subset of C211 and the collocation of C213, both orders, in memory; (a) also through a file."
  },
  {
   "property": "C216",
   "status": "proved",
   "theorems": [
    "Cis.AggCmd.c216_subset_aggregate",
    "Cis.AggCmd.c216_contain"
   ],
   "note": "From the texts of both arguments to the values; the values of the cells do not depend on the subset."
  },
  {
   "property": "C217",
   "status": "proved",
   "theorems": [
    "Cis.ColApi.c217_same",
    "Cis.ColApi.c217_command",
    "Cis.ColApi.c217_refused",
    "Cis.ColApi.c217_direction"
   ],
   "note": "Values included: both sides run the collocator of C17/C184. Options are text, kernels are given by name."
  },
  {
   "property": "C218",
   "status": "partial",
   "theorems": [
    "Cis.ColApi.c217_documented_violated",
    "Cis.ColApi.c217_direction"
   ],
   "note": "The statement is false of the code: for all data with different numbers of points the two differ (c217_direction). What holds is C217."
  },
  {
   "property": "C219",
   "status": "proved",
   "theorems": [
    "Cis.RoundTrip.c219_subset_sample"
   ],
   "note": "From the objects read from the files to the objects saved (reading and saving: C96, C211, C214)."
  },
  {
   "property": "C22",
   "status": "proved",
   "theorems": [
    "Cis.Lon.c22_ungridded_view",
    "Cis.Lon.c22_gridded_view"
   ],
   "note": "For longitudes within one period either side, as documented."
  },
  {
   "property": "C220",
   "status": "proved",
   "theorems": [
    "Cis.SubsetCol.c220_subset_before"
   ],
   "note": "The commands are those of C188 and C191 (same simplifications); the condition on nodes with missing values is needed (C151)."
  },
  {
   "property": "C221",
   "status": "proved",
   "theorems": [
    "Cis.SubsetCollapse.c221_subset_collapse"
   ],
   "note": "Composition of the models of C188 and C187."
  },
  {
   "property": "C222",
   "status": "proved",
   "theorems": [
    "Cis.SubsetStats.c222_subset_stats"
   ],
   "note": "Composition of the models of C198 and C185."
  },
  {
   "property": "C223",
   "status": "proved",
   "theorems": [
    "Cis.SubsetGridStats.c223_subset_stats",
    "Cis.SubsetGridStats.same_cells"
   ],
   "note": "Composition of the models of C188 and C185."
  },
  {
   "property": "C224",
   "status": "proved",
   "theorems": [
    "Cis.Interp.Vertical.c224_vertical_anywhere",
    "Cis.Interp.Vertical.c224_place",
    "Cis.Interp.Vertical.c224_column",
    "Cis.Interp.Vertical.c224_refused"
   ],
   "note": "Axes ascending and not circular. Which horizontal dimensions a hybrid coordinate may depend on is C60 and C164."
  },
  {
   "property": "C225",
   "status": "proved",
   "theorems": [
    "Cis.Attrs.EarthCare.c225_saved",
    "Cis.Attrs.EarthCare.c225_data",
    "Cis.Attrs.EarthCare.c225_part"
   ],
   "note": "Attributes of a file named like properties of the Python object of the variable are not treated apart (as C127). After other operations, and for parts: C226."
  },
  {
   "property": "C226",
   "status": "partial",
   "theorems": [
    "Cis.Attrs.EarthCare.c226_standard_name_violated",
    "Cis.Attrs.EarthCare.c226_history_violated",
    "Cis.Attrs.EarthCare.c226_part_violated"
   ],
   "note": "False of the code: the standard name is taken from the name of the variable only, the history in the file is replaced by the first addition, and parts lose the other attributes. What holds is C225."
  },
  {
   "property": "C227",
   "status": "proved",
   "theorems": [
    "Cis.HadGem.c227_read",
    "Cis.HadGem.c227_unknown",
    "Cis.HadGem.c227_listed"
   ],
   "note": "One file. What Iris makes of several variables with the name asked for is a parameter."
  },
  {
   "property": "C228",
   "status": "partial",
   "theorems": [
    "Cis.HadGem.c228_two_times_violated",
    "Cis.HadGem.c228_hybrid_units_violated"
   ],
   "note": "False of the code: with a coordinate called t besides the time both become times and none is converted, and a hybrid height without units of length makes the reading fail. What holds is C227."
  },
  {
   "property": "C23",
   "status": "proved",
   "theorems": [
    "Cis.Lon.c23_gridded_range",
    "Cis.Lon.c23_aux_points"
   ],
   "note": ""
  },
  {
   "property": "C24",
   "status": "proved",
   "theorems": [
    "Cis.Time.c24_range",
    "Cis.Time.c24_between",
    "Cis.Time.c24_accepted",
    "Cis.Time.c24_range_defined"
   ],
   "note": ""
  },
  {
   "property": "C25",
   "status": "proved",
   "theorems": [
    "Cis.Time.c25_grammar",
    "Cis.Time.c25_only",
    "Cis.Time.c25_huge_year"
   ],
   "note": "Partial date-times (the parser in this repository); full date-times are parsed by dateutil (external, not modelled)."
  },
  {
   "property": "C26",
   "status": "proved",
   "theorems": [
    "Cis.Time.c26_grammar",
    "Cis.Time.c26_any_order",
    "Cis.Time.c26_needs_p",
    "Cis.Time.c26_documented_example"
   ],
   "note": "For all strings of the grammar below a billion days, and for date components in any order and number (the last of a unit counts). Strings outside the grammar: C165."
  },
  {
   "property": "C27",
   "status": "proved",
   "theorems": [
    "Cis.Time.c27_std_time"
   ],
   "note": "An equivalence, for exact arithmetic (double precision: C136)."
  },
  {
   "property": "C28",
   "status": "proved",
   "theorems": [
    "Cis.Time.c28_set_year",
    "Cis.Time.c28_out_of_range",
    "Cis.Time.c28_mid_time",
    "Cis.Time.Convert.c28_data"
   ],
   "note": "For the years 1 to 9999 representable by datetime; other years give None."
  },
  {
   "property": "C29",
   "status": "proved",
   "theorems": [
    "Cis.Parse.colon_roundtrip",
    "Cis.Parse.splitColon_lossless",
    "Cis.Parse.splitColon_no_backslash_end"
   ],
   "note": ""
  },
  {
   "property": "C30",
   "status": "proved",
   "theorems": [
    "Cis.Parse.split_outside",
    "Cis.Parse.split_outside_join",
    "Cis.Parse.c30_join_roundtrip"
   ],
   "note": ""
  },
  {
   "property": "C31",
   "status": "proved",
   "theorems": [
    "Cis.Parse.multi_split_fields",
    "Cis.Parse.c31_multi_split"
   ],
   "note": ""
  },
  {
   "property": "C32",
   "status": "proved",
   "theorems": [
    "Cis.Parse.aliases_spec",
    "Cis.Parse.aliases_fail_iff"
   ],
   "note": ""
  },
  {
   "property": "C33",
   "status": "proved",
   "theorems": [
    "Cis.Parse.output_validation",
    "Cis.Parse.splitOutput_spec",
    "Cis.Parse.overwrite_env_no"
   ],
   "note": "Operating system calls and answers are arbitrary. Any value of the environment variable but false (e.g. no) allows overwriting."
  },
  {
   "property": "C34",
   "status": "proved",
   "theorems": [
    "Cis.Masks.apply_mask",
    "Cis.Masks.intersect_masks",
    "Cis.Masks.mask_missing_values",
    "Cis.Masks.mask_missing"
   ],
   "note": "numpy.ma semantics as stated in the model."
  },
  {
   "property": "C35",
   "status": "proved",
   "theorems": [
    "Cis.Masks.stats_valid",
    "Cis.Masks.abs_mean_eq",
    "Cis.Masks.means_missing_iff"
   ],
   "note": "Standard deviations are squared; the relative difference additionally leaves out zero divisors (masked arrays). Rank correlation and regression are in C119."
  },
  {
   "property": "C36",
   "status": "proved",
   "theorems": [
    "Cis.Subset.subset_general",
    "Cis.Subset.subset_exact",
    "Cis.Subset.subset_open_ends",
    "Cis.Subset.subset_shape",
    "Cis.Subset.open_limit",
    "Cis.Subset.subset_order",
    "Cis.Subset.subset_idempotent",
    "Cis.Subset.subset_input_unchanged"
   ],
   "note": "For all data, limits (also open at either end) on different coordinates, and shapes with limits on coordinates other than those of the shape. The membership test of shapely is a parameter. Limits on the coordinates of the shape: C140."
  },
  {
   "property": "C37",
   "status": "proved",
   "theorems": [
    "Cis.Subset.subset_longitude"
   ],
   "note": ""
  },
  {
   "property": "C38",
   "status": "proved",
   "theorems": [
    "Cis.Subset.subset_list"
   ],
   "note": ""
  },
  {
   "property": "C39",
   "status": "proved",
   "theorems": [
    "Cis.Agg.grid_tiles"
   ],
   "note": "Exact arithmetic; numeric grids (date grids go through the same arithmetic on numbers)."
  },
  {
   "property": "C40",
   "status": "proved",
   "theorems": [
    "Cis.Agg.aggregate_cells",
    "Cis.Agg.aggregate_conserves",
    "Cis.Agg.inGrid_of_range",
    "Cis.Agg.c40_clip_same",
    "Cis.Agg.c40_clip_cells",
    "Cis.Agg.c40_clip_conserves",
    "Cis.Agg.c40_unclipped"
   ],
   "note": ""
  },
  {
   "property": "C41",
   "status": "proved",
   "theorems": [
    "Cis.Agg.collapse_dims",
    "Cis.Agg.collapse_all_dims",
    "Cis.Agg.collapse_coord"
   ],
   "note": ""
  },
  {
   "property": "C42",
   "status": "proved",
   "theorems": [
    "Cis.Hyper.c42_abs_sep",
    "Cis.Hyper.c42_pres_sep",
    "Cis.Hyper.c42_comp_abs",
    "Cis.Hyper.c42_comp_pres",
    "Cis.Hyper.c42_comp_dist",
    "Cis.Hyper.c42_same_point",
    "Cis.Hyper.c42_coord_tuple",
    "Cis.Hyper.c42_modified"
   ],
   "note": ""
  },
  {
   "property": "C43",
   "status": "proved",
   "theorems": [
    "Cis.Ungridded.c43_post_process",
    "Cis.Ungridded.c43_all_valid",
    "Cis.Ungridded.c43_aligned",
    "Cis.Ungridded.c43_idempotent",
    "Cis.Ungridded.c43_coordinates",
    "Cis.Ungridded.c43_points_aligned"
   ],
   "note": "Arrays of different sizes are refused."
  },
  {
   "property": "C44",
   "status": "proved",
   "theorems": [
    "Cis.Lazy.c44_data",
    "Cis.Lazy.c44_data_array",
    "Cis.Lazy.c44_flat",
    "Cis.Lazy.c44_flat_array",
    "Cis.Lazy.c44_loaded_once",
    "Cis.Lazy.c44_crash_exact"
   ],
   "note": ""
  },
  {
   "property": "C45",
   "status": "proved",
   "theorems": [
    "Cis.Coords.c45_get_coords",
    "Cis.Coords.c45_get_coord_exact",
    "Cis.Coords.c45_get_coord",
    "Cis.Coords.c45_find_standard_coords",
    "Cis.Coords.c45_append_unique",
    "Cis.Coords.c45_append"
   ],
   "note": ""
  },
  {
   "property": "C46",
   "status": "proved",
   "theorems": [
    "Cis.DataList.c46_append",
    "Cis.DataList.c46_homogeneous",
    "Cis.DataList.c46_equal_shapes",
    "Cis.DataList.c46_extend_prefix"
   ],
   "note": ""
  },
  {
   "property": "C47",
   "status": "proved",
   "theorems": [
    "Cis.Maths.c47_ok_iff",
    "Cis.Maths.c47_in_place_ok_iff",
    "Cis.Maths.c47_new",
    "Cis.Maths.c47_in_place",
    "Cis.Maths.c47_fail_unchanged",
    "Cis.Maths.c47_units_error",
    "Cis.Maths.c47_plain_operand",
    "Cis.Maths.c47_unary_new",
    "Cis.Maths.c47_unary_in_place",
    "Cis.Maths.c47_power_new",
    "Cis.Maths.c47_power_in_place",
    "Cis.Maths.c47_unary_history"
   ],
   "note": "Units and numbers are abstract; in-place combinations of plain with masked arrays follow the elementwise rule by assumption."
  },
  {
   "property": "C48",
   "status": "proved",
   "theorems": [
    "Cis.Evaluate.c48_dunder",
    "Cis.Evaluate.c48_names",
    "Cis.Evaluate.c48_lookup_alias",
    "Cis.Evaluate.c48_only_names",
    "Cis.Evaluate.c48_no_builtins_name",
    "Cis.Evaluate.c48_ok_iff",
    "Cis.Evaluate.c48_coords",
    "Cis.Evaluate.c48_inputs_kept",
    "Cis.Evaluate.c48_history",
    "Cis.Evaluate.c48_unchanged"
   ],
   "note": "Python's eval is a parameter (assumed not to change its arguments)."
  },
  {
   "property": "C49",
   "status": "proved",
   "theorems": [
    "Cis.Plugin.c49_choice",
    "Cis.Plugin.c49_explicit"
   ],
   "note": "Regular expression matching and file type checks are parameters."
  },
  {
   "property": "C50",
   "status": "proved",
   "theorems": [
    "Cis.Plugin.c50_subclasses",
    "Cis.Plugin.c50_complete",
    "Cis.Plugin.c50_sound",
    "Cis.Plugin.c50_abstract",
    "Cis.Plugin.findPlugins_last"
   ],
   "note": ""
  },
  {
   "property": "C51",
   "status": "proved",
   "theorems": [
    "Cis.Write.c51_save",
    "Cis.Write.createAll_first"
   ],
   "note": ""
  },
  {
   "property": "C52",
   "status": "proved",
   "theorems": [
    "Cis.Plugin.c52_table",
    "Cis.Plugin.c52_kernel_ignored"
   ],
   "note": "Full table for all strings and kernel arguments; keyword arguments of the constraint not modelled."
  },
  {
   "property": "C53",
   "status": "proved",
   "theorems": [
    "Cis.Hyper.c53_ungridded_item",
    "Cis.Hyper.c53_ungridded_negative",
    "Cis.Hyper.c53_ungridded_iter",
    "Cis.Hyper.c53_gridded_item",
    "Cis.Hyper.c53_gridded_iter_all",
    "Cis.Hyper.c53_gridded_enum_non_masked",
    "Cis.Hyper.c53_gridded_iter"
   ],
   "note": ""
  },
  {
   "property": "C54",
   "status": "proved",
   "theorems": [
    "Cis.DataList.c54_history_gridded",
    "Cis.DataList.c54_history_ungridded",
    "Cis.DataList.c54_history_prefix",
    "Cis.DataList.c54_history_list"
   ],
   "note": "Objects of a list are assumed not to share their metadata."
  },
  {
   "property": "C55",
   "status": "proved",
   "theorems": [
    "Cis.Masks.bin_edges",
    "Cis.Masks.bin_edges_default",
    "Cis.Masks.bin_edges_nonterminating",
    "Cis.Masks.log_edges"
   ],
   "note": ""
  },
  {
   "property": "C56",
   "status": "partial",
   "theorems": [
    "Cis.Masks.array_equal_partial",
    "Cis.Masks.array_equal_iff",
    "Cis.Masks.array_equal_nan_violated"
   ],
   "note": "NaN in the first array equals anything (violation)."
  },
  {
   "property": "C57",
   "status": "proved",
   "theorems": [
    "Cis.Colloc.c57_same_data"
   ],
   "note": ""
  },
  {
   "property": "C58",
   "status": "proved",
   "theorems": [
    "Cis.Geo.c58_haversine_great_circle",
    "Cis.Geo.c58_haversine_metric",
    "Cis.Geo.c58_haversine_longitude_convention",
    "Cis.Geo.c58_furthest_point"
   ],
   "note": "Exact real arithmetic."
  },
  {
   "property": "C59",
   "status": "partial",
   "theorems": [
    "Cis.HavTree.c59_nearest_total_partial",
    "Cis.HavTree.c59_nearest_one_leaf_partial",
    "Cis.HavTree.c59_nearest_kept_partial",
    "Cis.HavTree.c59_nearest_region_partial",
    "Cis.HavTree.c59_nearest_sixty_partial",
    "Cis.HavTree.c59_nearest_violated"
   ],
   "note": "The code compares squared degrees with kilometres, so with more than one leaf the nearest point can be missed (counterexample across the date line). Proved: the search ends with the index of a data point; exact for at most leafsize points; for data of any size no point whose squared separation in degrees is at most its distance in km is missed, hence exact when a nearest point is within sqrt(cos cos)*6378/90 degrees of the sample without wrapping (in particular within 35 degrees between 60S and 60N)."
  },
  {
   "property": "C60",
   "status": "proved",
   "theorems": [
    "Cis.Interp.c60_column"
   ],
   "note": "Linear interpolation."
  },
  {
   "property": "C61",
   "status": "proved",
   "theorems": [
    "Cis.Parse.c61_options",
    "Cis.Parse.comma_options",
    "Cis.Parse.single_option",
    "Cis.Parse.repeated_option"
   ],
   "note": ""
  },
  {
   "property": "C62",
   "status": "partial",
   "theorems": [
    "Cis.Write.save_one_group_partial",
    "Cis.Write.save_groups_last_violated"
   ],
   "note": "Holds for one datagroup; with several only the last output is left (violation)."
  },
  {
   "property": "C63",
   "status": "proved",
   "theorems": [
    "Cis.Agg.output_coords"
   ],
   "note": ""
  },
  {
   "property": "C64",
   "status": "proved",
   "theorems": [
    "Cis.Agg.remapped_index",
    "Cis.Agg.bin_sample"
   ],
   "note": ""
  },
  {
   "property": "C65",
   "status": "proved",
   "theorems": [
    "Cis.Coords.c65_copy_same",
    "Cis.Coords.c65_copy"
   ],
   "note": ""
  },
  {
   "property": "C66",
   "status": "proved",
   "theorems": [
    "Cis.Coords.c66_lookup_matches",
    "Cis.Coords.c66_lookup_by_name",
    "Cis.SubsetCmd.c66_lookup_stands_for"
   ],
   "note": ""
  },
  {
   "property": "C67",
   "status": "partial",
   "theorems": [
    "Cis.Hyper.c67_hyper_point_exact",
    "Cis.Hyper.c67_hyper_point_partial",
    "Cis.Hyper.c67_hyper_point_violated"
   ],
   "note": "Air pressure and time are exchanged (violation)."
  },
  {
   "property": "C68",
   "status": "proved",
   "theorems": [
    "Cis.Ungridded.c68_points_round_trip",
    "Cis.Ungridded.c68_values"
   ],
   "note": ""
  },
  {
   "property": "C69",
   "status": "proved",
   "theorems": [
    "Cis.Hyper.c69_view_longitude"
   ],
   "note": ""
  },
  {
   "property": "C70",
   "status": "proved",
   "theorems": [
    "Cis.Ungridded.c70_coords_size"
   ],
   "note": ""
  },
  {
   "property": "C71",
   "status": "partial",
   "theorems": [
    "Cis.Maths.c71_range_partial",
    "Cis.Maths.c71_in_place_range_violated",
    "Cis.Maths.c71_coord_range_violated",
    "Cis.Maths.c71_no_shape_violated",
    "Cis.Maths.c71_history_violated",
    "Cis.Maths.c71_attributes_violated"
   ],
   "note": "Range proved for new ungridded data; violated in place and for coordinates; history lines are the same for all operators, attributes are dropped, coordinates without a recorded shape allow no arithmetic."
  },
  {
   "property": "C72",
   "status": "proved",
   "theorems": [
    "Cis.Interp.c72_same_grid",
    "Cis.Interp.collocateVars_ok"
   ],
   "note": ""
  },
  {
   "property": "C73",
   "status": "proved",
   "theorems": [
    "Cis.GridColloc.c73_output_on_sample",
    "Cis.GridColloc.c73_targets",
    "Cis.GridColloc.c73_kernel_refused"
   ],
   "note": "iris' interpolation itself is a parameter; names of the coordinates of a cube are distinct; coordinates one-dimensional."
  },
  {
   "property": "C74",
   "status": "proved",
   "theorems": [
    "Cis.GridColloc.c74_missing_for_missing",
    "Cis.GridColloc.c74_dimensions_dropped"
   ],
   "note": ""
  },
  {
   "property": "C75",
   "status": "proved",
   "theorems": [
    "Cis.Read.c75_netcdf",
    "Cis.Read.c75_hdf_sd",
    "Cis.Read.c75_caliop",
    "Cis.Read.c75_cloudsat",
    "Cis.Read.c75_cloudsat_vd"
   ],
   "note": "For calls that succeed and libraries that mask missing values (NetCDF). Numbers are rationals: rounding is not modelled."
  },
  {
   "property": "C76",
   "status": "proved",
   "theorems": [
    "Cis.Read.c76_listing",
    "Cis.Read.c76_read",
    "Cis.Read.c76_listed_iff_readable",
    "Cis.Read.c76_exclude_coords",
    "Cis.Read.c76_spatiotemporal"
   ],
   "note": "For all group trees of any depth."
  },
  {
   "property": "C77",
   "status": "proved",
   "theorems": [
    "Cis.Read.c77_netcdf_success",
    "Cis.Read.c77_netcdf",
    "Cis.Read.c77_hdf_success",
    "Cis.Read.c77_hdf",
    "Cis.Read.c77_concatenate",
    "Cis.Read.c77_read_data"
   ],
   "note": "Library failures on damaged files: C125."
  },
  {
   "property": "C78",
   "status": "partial",
   "theorems": [
    "Cis.Modis.c78_entries",
    "Cis.Modis.c78_slices_partial",
    "Cis.Modis.c78_first_entry_violated",
    "Cis.Modis.c78_two_layers_violated"
   ],
   "note": "Number and order of slices and the data of all slices but the first are proved; the first slice always has the data of the second index (shared handles, read when the second slice is appended)."
  },
  {
   "property": "C79",
   "status": "proved",
   "theorems": [
    "Cis.Reader.c79_expand",
    "Cis.Reader.c79_read",
    "Cis.Reader.c79_success",
    "Cis.Reader.c79_few_aliases",
    "Cis.Reader.c79_read_data",
    "Cis.Reader.c79_read_data_success"
   ],
   "note": ""
  },
  {
   "property": "C80",
   "status": "proved",
   "theorems": [
    "Cis.Aeronet.c80_file",
    "Cis.Aeronet.c80_layout",
    "Cis.Aeronet.c80_header_line",
    "Cis.Aeronet.c80_sda_columns"
   ],
   "note": ""
  },
  {
   "property": "C81",
   "status": "proved",
   "theorems": [
    "Cis.Limits.c81_longitude",
    "Cis.Limits.c81_longitude_accepts",
    "Cis.Limits.c81_values",
    "Cis.Limits.c81_all_segments",
    "Cis.Limits.c81_time_interval",
    "Cis.Limits.c81_time_pair",
    "Cis.Limits.c81_yz",
    "Cis.Limits.c81_argument"
   ],
   "note": "For all strings, with the conversions of numbers and dates as parameters."
  },
  {
   "property": "C82",
   "status": "proved",
   "theorems": [
    "Cis.Limits.c82_grid",
    "Cis.Limits.c82_bare_name",
    "Cis.Limits.c82_no_delta",
    "Cis.Limits.c82_argument"
   ],
   "note": "For all well-formed segments, with the conversions of numbers, dates and durations as parameters."
  },
  {
   "property": "C83",
   "status": "proved",
   "theorems": [
    "Cis.Subset.Gridded.c83_subset",
    "Cis.Subset.Gridded.c83_too_wide",
    "Cis.Subset.Gridded.c83_shape",
    "Cis.Subset.Gridded.c83_shape_dimensions",
    "Cis.Subset.Gridded.c83_shape_masked_exact"
   ],
   "note": "iris's extract and intersection are modelled by their documented effect on coordinates without bounds."
  },
  {
   "property": "C84",
   "status": "proved",
   "theorems": [
    "Cis.Distance.c84_km",
    "Cis.Distance.c84_m",
    "Cis.Distance.c84_no_number"
   ],
   "note": "For all numerals and all units made of letters (exact arithmetic)."
  },
  {
   "property": "C85",
   "status": "proved",
   "theorems": [
    "Cis.Method.c85_method"
   ],
   "note": ""
  },
  {
   "property": "C86",
   "status": "proved",
   "theorems": [
    "Cis.Plot.c86_correlation",
    "Cis.Plot.c86_gamma_bias",
    "Cis.Plot.c86_reference",
    "Cis.Plot.c86_points",
    "Cis.Plot.c86_distance",
    "Cis.Plot.c86_flag",
    "Cis.Plot.c86_constant_reference"
   ],
   "note": ""
  },
  {
   "property": "C87",
   "status": "proved",
   "theorems": [
    "Cis.Read.c87_cloudsat",
    "Cis.Read.c87_cloudsat_1d",
    "Cis.Read.c87_caliop"
   ],
   "note": ""
  },
  {
   "property": "C88",
   "status": "proved",
   "theorems": [
    "Cis.Plot.c88_layers",
    "Cis.Plot.c88_type",
    "Cis.Plot.c88_count",
    "Cis.Plot.c88_command",
    "Cis.Plot.c88_comparative",
    "Cis.Plot.c88_comparative_two",
    "Cis.Plot.c88_taylor",
    "Cis.Plot.c88_single"
   ],
   "note": ""
  },
  {
   "property": "C89",
   "status": "proved",
   "theorems": [
    "Cis.Plot.c89_named",
    "Cis.Plot.c89_axis",
    "Cis.Plot.c89_sound",
    "Cis.Plot.c89_first_dim",
    "Cis.Plot.c89_type",
    "Cis.Plot.c89_comparative_type"
   ],
   "note": ""
  },
  {
   "property": "C90",
   "status": "proved",
   "theorems": [
    "Cis.Plot.Mesh.c90_points",
    "Cis.Plot.Mesh.c90_cyclic",
    "Cis.Plot.Mesh.c90_cells"
   ],
   "note": "One-dimensional coordinates."
  },
  {
   "property": "C91",
   "status": "proved",
   "theorems": [
    "Cis.Plot.c91_ticks",
    "Cis.Plot.c91_size",
    "Cis.Plot.c91_resolution",
    "Cis.Plot.c91_central",
    "Cis.Plot.c91_central_user",
    "Cis.Plot.c91_levels",
    "Cis.Plot.c91_label"
   ],
   "note": ""
  },
  {
   "property": "C92",
   "status": "proved",
   "theorems": [
    "Cis.Read.Raf.c92_select",
    "Cis.Read.Raf.c92_no_files",
    "Cis.Read.Raf.c92_points",
    "Cis.Read.Raf.c92_read",
    "Cis.Read.Raf.c92_total",
    "Cis.Read.Raf.c92_data",
    "Cis.Read.Raf.c92_auxiliary",
    "Cis.Read.Raf.c92_two_auxiliary",
    "Cis.Read.Raf.c92_aux_points",
    "Cis.Read.Raf.c92_compatible",
    "Cis.Read.Raf.c92_variables",
    "Cis.Read.Raf.c92_file_type",
    "Cis.Read.Raf.c92_file_format"
   ],
   "note": ""
  },
  {
   "property": "C93",
   "status": "proved",
   "theorems": [
    "Cis.EarthCare.c93_plain_name",
    "Cis.EarthCare.c93_indexed_name",
    "Cis.EarthCare.c93_slice",
    "Cis.EarthCare.c93_slice_defined",
    "Cis.EarthCare.c93_whole",
    "Cis.EarthCare.c93_track_coord",
    "Cis.EarthCare.c93_same_shape",
    "Cis.EarthCare.c93_index_z",
    "Cis.EarthCare.c93_height",
    "Cis.EarthCare.c93_index_x",
    "Cis.EarthCare.c93_required_shape",
    "Cis.EarthCare.c93_required_shape_plain",
    "Cis.EarthCare.c93_aligned",
    "Cis.EarthCare.c93_coords_kept"
   ],
   "note": ""
  },
  {
   "property": "C94",
   "status": "proved",
   "theorems": [
    "Cis.Cci.c94_exact",
    "Cis.Cci.c94_last_day",
    "Cis.Cci.c94_time_coordinate",
    "Cis.Cci.c94_ungridded",
    "Cis.Cci.c94_ungridded_long_names",
    "Cis.Cci.c94_aligned"
   ],
   "note": "strptime is modelled for the two formats; the conversion of a date to a number is a parameter. The last month of the year 9999 is out of range."
  },
  {
   "property": "C95",
   "status": "proved",
   "theorems": [
    "Cis.Gridded.c95_variable",
    "Cis.Gridded.c95_unknown",
    "Cis.Gridded.c95_names",
    "Cis.Gridded.c95_listed",
    "Cis.Gridded.c95_aux_aligned",
    "Cis.Gridded.c95_time",
    "Cis.Gridded.c95_pressure",
    "Cis.Gridded.c95_altitude",
    "Cis.Gridded.c95_read"
   ],
   "note": "The contracts of iris are stated in the module header."
  },
  {
   "property": "C96",
   "status": "proved",
   "theorems": [
    "Cis.RoundTrip.c96_round_trip",
    "Cis.RoundTrip.c96_values",
    "Cis.RoundTrip.c96_recognised"
   ],
   "note": "Exact arithmetic; the library masks missing values."
  },
  {
   "property": "C97",
   "status": "proved",
   "theorems": [
    "Cis.Main.c97_status",
    "Cis.Main.c97_groups",
    "Cis.Main.c97_subset",
    "Cis.Main.c97_subset_nothing",
    "Cis.Main.c97_aggregate",
    "Cis.Main.c97_collapse",
    "Cis.Main.c97_evaluate",
    "Cis.Main.c97_stats",
    "Cis.Main.c97_only_output",
    "Cis.Main.c97_missing_option"
   ],
   "note": "For every outcome of the steps (reading, operation and saving are parameters)."
  },
  {
   "property": "C98",
   "status": "proved",
   "theorems": [
    "Cis.Crash.c98_refines",
    "Cis.Crash.c98_single",
    "Cis.Crash.c98_list",
    "Cis.Crash.c98_last",
    "Cis.Crash.c98_read"
   ],
   "note": "For every crash point. Damage by the HDF5 library to a file that was not closed is not modelled."
  },
  {
   "property": "C99",
   "status": "proved",
   "theorems": [
    "Cis.Hist.c99_histogram",
    "Cis.Hist.c99_refused",
    "Cis.Hist.c99_scatter",
    "Cis.Hist.c99_sizes",
    "Cis.Hist.c99_histogram2d",
    "Cis.Hist.c99_one_bin",
    "Cis.Hist.c99_coord"
   ],
   "note": "Exact arithmetic (numpy's rounding and NaN are not modelled)."
  }
 ]
}