{
 "claims": [
  {
   "property": "C01",
   "status": "proved",
   "theorems": [
    "Verif.Heap.C01_heap_is_map"
   ],
   "note": "Every history of push/push_if_lower/pop on a fresh heap refines the map specification Spec.Runs, with count = number of entries. Keys from any linear order with top (np.inf); NaN keys excluded."
  },
  {
   "property": "C02",
   "status": "proved",
   "theorems": [
    "Verif.Heap.C02_heap_memory_safe"
   ],
   "note": "All array accesses are checked in the model; no history returns none. int64/int8 overflow not modelled."
  },
  {
   "property": "C03",
   "status": "proved",
   "theorems": [
    "Verif.Heap.C03_heap_flags"
   ],
   "note": "Flags characterised by iff in every reachable state."
  },
  {
   "property": "C04",
   "status": "proved",
   "theorems": [
    "Verif.Heap.C04_drain_sorted",
    "Verif.Heap.C04_capacity_independent"
   ],
   "note": "Draining is a sorted enumeration of the map; reports agree for all pairs of capacities (the value reported by pop on an empty heap is excluded, it is a stale slot and can differ)."
  },
  {
   "property": "C05",
   "status": "proved",
   "theorems": [
    "Verif.CostDistance.C05_cost_distance_least",
    "Verif.CostDistance.C05_rejections"
   ],
   "note": "Dijkstra invariant over the heap model; arithmetic over an ordered field, sqrt any non-negative function (instantiated to Real.sqrt). NaN costs are barriers; NaN elevations excluded."
  },
  {
   "property": "C06",
   "status": "proved",
   "theorems": [
    "Verif.CostDistance.C06_reached_iff_path"
   ],
   "note": "Reached iff a path exists; unreached cells keep inf, -2, null allocation; non-source barriers unreached."
  },
  {
   "property": "C07",
   "status": "proved",
   "theorems": [
    "Verif.CostDistance.C07_traceback"
   ],
   "note": "Trail along documented traceback codes, Nodup, in the grid, cost equals distance, allocation equals the source value."
  },
  {
   "property": "C08",
   "status": "proved",
   "theorems": [
    "Verif.CostDistance.C08_iteration_budget"
   ],
   "note": "Every cap of at least size gives the same final state as the shipped cap, queue empty, popped cells distinct."
  },
  {
   "property": "C09",
   "status": "proved",
   "theorems": [
    "Verif.Proximity.C09_real_targets"
   ],
   "note": "Any metric with zero self distance, any max_distance (squared distances stored, the final square root is applied cell by cell)."
  },
  {
   "property": "C41",
   "status": "partial",
   "theorems": [
    "Verif.Proximity.C41_nearest_partial",
    "Verif.Proximity.C41_euclidean_not_nearest",
    "Verif.GreatCircle.C41_great_circle"
   ],
   "note": "Proved for the taxi and chebyshev metrics on any regular grid. False for the default Euclidean metric (a 4x4 raster with 3 targets is a counterexample) and for the great circle metric (a row around the globe with 2 targets)."
  },
  {
   "property": "C42",
   "status": "partial",
   "theorems": [
    "Verif.Proximity.C42_chunk_equals_whole_partial",
    "Verif.Proximity.C42_chunk_real_targets",
    "Verif.Proximity.C42_integer_fill_phantom_target",
    "Verif.Proximity.C42_euclidean_depends_on_chunks"
   ],
   "note": "For every metric a chunk reports real targets in range. Equality with the whole raster is proved for the taxi and chebyshev metrics, any chunk, if the fill value is not a target. False for the Euclidean metric (counterexample with cells 1 by 8: a target outside of reach and overlap hides another on the whole raster, not in the chunk). Integer rasters: NaN fill cast to int is non-zero and acts as a target (counterexample)."
  },
  {
   "property": "C10",
   "status": "proved",
   "theorems": [
    "Verif.Mosaic.C10_first",
    "Verif.Mosaic.C10_last",
    "Verif.Mosaic.C10_valid_null_value_is_lost"
   ],
   "note": "Any number of rasters and bands. Cells equal to the output null value do not count (third theorem shows one being skipped)."
  },
  {
   "property": "C11",
   "status": "proved",
   "theorems": [
    "Verif.Mosaic.C11_integer_min_max",
    "Verif.Mosaic.C11_float_min_max"
   ],
   "note": "Integer data types with arbitrary limits, floats with NaN and infinities."
  },
  {
   "property": "C12",
   "status": "partial",
   "theorems": [
    "Verif.Mosaic.C12_sum_partial",
    "Verif.Mosaic.C12_float_partial",
    "Verif.Mosaic.C12_sum_of_seven_loses_values",
    "Verif.Mosaic.C12_sum_equal_to_null_is_null"
   ],
   "note": "Proved for fewer than seven rasters, or if no partial sum of consecutive rasters equals the null value. False otherwise: counterexample with seven rasters, and totals equal to the null value become null."
  },
  {
   "property": "C13",
   "status": "proved",
   "theorems": [
    "Verif.Mosaic.C13_parallel_scan",
    "Verif.Mosaic.C13_tree_reduction",
    "Verif.Mosaic.C13_halving_float",
    "Verif.Mosaic.C13_halving_integer"
   ],
   "note": "All block splits and all combination trees; dask's Blelloch scan is modelled as an arbitrary tree over the block summaries."
  },
  {
   "property": "C18",
   "status": "proved",
   "theorems": [
    "Verif.Nulls.C18_default_fits",
    "Verif.Nulls.C18_reconcile_fits",
    "Verif.Nulls.C18_boolean"
   ],
   "note": "Any NumPy whose conversion leaves integers that fit unchanged; both casting rules. Default of every dtype, floats by significand and exponent."
  },
  {
   "property": "C43",
   "status": "partial",
   "theorems": [
    "Verif.Nulls.C43_kept_numpy1",
    "Verif.Nulls.C43_kept_numpy2_partial",
    "Verif.Nulls.C43_numpy2_replaces_fitting_value",
    "Verif.Nulls.C43_pyInt"
   ],
   "note": "Proved for NumPy 1. For NumPy 2 the exact condition is proved and the property is false: 100 is replaced by -128 for int8."
  },
  {
   "property": "C19",
   "status": "proved",
   "theorems": [
    "Verif.Nulls.C19_common_dtype_holds_literals",
    "Verif.Nulls.C19_float_type",
    "Verif.Nulls.C19_special_floats",
    "Verif.Nulls.C19_literal_order_independent",
    "Verif.Nulls.C19_order_independent_partial",
    "Verif.Nulls.C19_unfitting_literals_ignored",
    "Verif.Nulls.C19_dtype_order_matters"
   ],
   "note": "np.promote_types and np.can_cast are modelled by their tables. Literals that fit no type together are ignored; explicit dtypes with float16 or float32 may give order dependent results (witnesses)."
  },
  {
   "property": "C14",
   "status": "proved",
   "theorems": [
    "Verif.Nulls.C14_elementwise",
    "Verif.Nulls.C14_with_numbers",
    "Verif.Nulls.C14_rejected"
   ],
   "note": "Rasters of one shape; the ufunc and its type resolution are arbitrary."
  },
  {
   "property": "C15",
   "status": "proved",
   "theorems": [
    "Verif.Nulls.C15_set_null",
    "Verif.Nulls.C15_idempotent",
    "Verif.Nulls.C15_union",
    "Verif.Nulls.C15_order",
    "Verif.Nulls.C15_null_mask"
   ],
   "note": "Conversion of the mask to boolean is x != 0."
  },
  {
   "property": "C16",
   "status": "partial",
   "theorems": [
    "Verif.Nulls.C16_set_null_value",
    "Verif.Nulls.C16_clear",
    "Verif.Nulls.C16_rejected",
    "Verif.Nulls.C16_nan_dtype",
    "Verif.Nulls.C16_boolean_nan",
    "Verif.Nulls.C16_boolean_false",
    "Verif.Nulls.C16_uint64_loses_digits",
    "Verif.Nulls.C16_replace_null"
   ],
   "note": "Proved for all dtypes but bool and, for the kept values, all but 64 bit integers that turn into floats. Counterexamples for both, and NaN is a KeyError for 64 bit integers."
  },
  {
   "property": "C17",
   "status": "partial",
   "theorems": [
    "Verif.Nulls.C17_astype",
    "Verif.Nulls.C17_new_null_partial",
    "Verif.Nulls.C17_close_null_ignored",
    "Verif.Nulls.C17_close_iff",
    "Verif.Nulls.C17_unmasked_null_ignored",
    "Verif.Nulls.C17_nan_null_replaced"
   ],
   "note": "Proved without a new null value, and with one that is not close to the old one. Counterexamples: close values, rasters without null value, NaN."
  },
  {
   "property": "C44",
   "status": "partial",
   "theorems": [
    "Verif.Nulls.C44_null_cells_hold_null_value",
    "Verif.Nulls.C44_boolean_false_null",
    "Verif.Nulls.C44_array"
   ],
   "note": "Any history; set_null, set_null_value and burn_mask on boolean rasters only if the null value is True (counterexample otherwise), astype with a new null value as in C17."
  },
  {
   "property": "C20",
   "status": "proved",
   "theorems": [
    "Verif.Grid.C20_index_of_xy",
    "Verif.Grid.C20_unique_cell",
    "Verif.Grid.C20_rectangle"
   ],
   "note": "Any invertible affine transform over an ordered field with floor; the affine package's product, application and inverse are modelled."
  },
  {
   "property": "C21",
   "status": "partial",
   "theorems": [
    "Verif.Grid.C21_locations",
    "Verif.Grid.C21_axis_partition",
    "Verif.Grid.C21_chunk_rasters",
    "Verif.Grid.C21_block_info",
    "Verif.Grid.C21_bounding_boxes",
    "Verif.Grid.C21_single_row_chunk"
   ],
   "note": "Proved but for get_chunk_bounding_boxes on chunks with a single row or column, where rioxarray cannot derive the resolution (counterexample)."
  },
  {
   "property": "C22",
   "status": "partial",
   "theorems": [
    "Verif.Grid.C22_points",
    "Verif.Grid.C22_geographic_crs"
   ],
   "note": "Proved for axis-aligned grids with a projected CRS. With a geographic CRS to_points raises a KeyError."
  },
  {
   "property": "C35",
   "status": "proved",
   "theorems": [
    "Verif.Grid.C35_resize",
    "Verif.Grid.C35_named",
    "Verif.Grid.C35_undo",
    "Verif.Grid.C35_pad_undo",
    "Verif.Grid.C35_shift_add",
    "Verif.Grid.C35_history"
   ],
   "note": "All integer amounts and all sequences of them."
  },
  {
   "property": "C45",
   "status": "proved",
   "theorems": [
    "Verif.Grid.C45_quadrants",
    "Verif.Grid.C45_sizes"
   ],
   "note": ""
  },
  {
   "property": "C23",
   "status": "proved",
   "theorems": [
    "Verif.Bands.C23_stack_split",
    "Verif.Bands.C23_rejected",
    "Verif.Bands.C23_null_value",
    "Verif.Bands.C23_close_null_not_replaced"
   ],
   "note": "Inputs on one grid; reprojection is not modelled. The null cells of a stack may hold a value other than its null value (counterexample)."
  },
  {
   "property": "C24",
   "status": "proved",
   "theorems": [
    "Verif.Bands.C24_pad",
    "Verif.Bands.C24_exact_fill",
    "Verif.Bands.C24_rejected",
    "Verif.Bands.C24_fill_wraps_to_null"
   ],
   "note": "The rows and columns added by rioxarray's pad_box are arbitrary numbers. A fill that wraps around to the null value is not marked null (counterexample)."
  },
  {
   "property": "C46",
   "status": "proved",
   "theorems": [
    "Verif.Bands.C46_get_bands",
    "Verif.Bands.C46_compose"
   ],
   "note": ""
  },
  {
   "property": "C47",
   "status": "proved",
   "theorems": [
    "Verif.Bands.C47_band_concat"
   ],
   "note": "Inputs on one grid."
  },
  {
   "property": "C25",
   "status": "proved",
   "theorems": [
    "Verif.Remap.C25_accepted",
    "Verif.Remap.C25_remap_range",
    "Verif.Remap.C25_array_types",
    "Verif.Remap.C25_dtype",
    "Verif.Remap.C25_rejected",
    "Verif.Remap.C25_errors",
    "Verif.Remap.C25_boolean_true_lost"
   ],
   "note": "Range bounds and outputs that the conversions to their common dtypes leave unchanged. Valid True cells of masked boolean rasters equal the null value and become null (counterexample to the stronger reading)."
  },
  {
   "property": "C26",
   "status": "partial",
   "theorems": [
    "Verif.Remap.C26_reclassify",
    "Verif.Remap.C26_array_types",
    "Verif.Remap.C26_mapping_after",
    "Verif.Remap.C26_shape",
    "Verif.Remap.C26_second_call_differs",
    "Verif.Remap.C26_fraction_matches_integer_key"
   ],
   "note": "The lookup is proved for values that the dictionary's key type holds. False otherwise: fractions are truncated to integer keys (numba's cast), and the caller's dictionary is changed so that a second identical call differs."
  },
  {
   "property": "C27",
   "status": "partial",
   "theorems": [
    "Verif.Remap.C27_where_partial",
    "Verif.Remap.C27_documented_partial",
    "Verif.Remap.C27_rejected",
    "Verif.Remap.C27_accepted",
    "Verif.Remap.C27_shape",
    "Verif.Remap.C27_scalar_lost",
    "Verif.Remap.C27_boolean_lost"
   ],
   "note": "Exact behaviour proved; it is the documented one if no selected value equals the result's null value. Counterexamples otherwise."
  },
  {
   "property": "C28",
   "status": "proved",
   "theorems": [
    "Verif.Regions.C28_labels",
    "Verif.Regions.C28_regions",
    "Verif.Regions.C28_order",
    "Verif.Regions.C28_null_value",
    "Verif.Regions.labeler_exists",
    "Verif.Regions.C28_duplicates_collide"
   ],
   "note": "scipy's label is a parameter with its specification as hypothesis; a labelling meeting it is proved to exist. Labels are unbounded naturals. With repeated values labels collide (counterexample)."
  },
  {
   "property": "C38",
   "status": "partial",
   "theorems": [
    "Verif.Stats.C38_unique",
    "Verif.Stats.C38_asm",
    "Verif.Stats.C38_entropy",
    "Verif.Stats.C38_mode",
    "Verif.Stats.C38_invariance",
    "Verif.Stats.C38_argmin_partial",
    "Verif.Stats.C38_argmax_partial",
    "Verif.Stats.C38_argmin_returns_nan",
    "Verif.Stats.C38_mode_sorts_argument"
   ],
   "note": "Unique count, mode, asm and entropy proved for all sequences. nanargmin (nanargmax) proved if a value other than inf (-inf) occurs; otherwise it may return the position of a NaN (counterexample). nanmode sorts the caller's array."
  },
  {
   "property": "C29",
   "status": "partial",
   "theorems": [
    "Verif.Focal.C29_masked",
    "Verif.Focal.C29_unmasked",
    "Verif.Focal.C29_rejected",
    "Verif.Focal.C29_unmasked_dtypes",
    "Verif.Focal.C29_unique_dtype",
    "Verif.Focal.C29_float_dtype",
    "Verif.Focal.C29_min_max_partial",
    "Verif.Focal.C29_sum_partial",
    "Verif.Focal.C29_solid_windows",
    "Verif.Focal.C29_even_window",
    "Verif.Focal.C29_annulus_edge"
   ],
   "note": "All statistics, windows and chunks for rasters with a null value, and all but min, max and sum without one. Those three go through scipy: proved for circles and odd rectangles (min, max) and odd windows (sum); counterexamples for an even window and for an annulus at the edge."
  },
  {
   "property": "C30",
   "status": "proved",
   "theorems": [
    "Verif.Focal.C30_circle",
    "Verif.Focal.C30_annulus",
    "Verif.Focal.C30_rectangle",
    "Verif.Focal.C30_symmetric",
    "Verif.Focal.C30_accepted",
    "Verif.Focal.C30_errors"
   ],
   "note": "Exact for every radius; the float comparison sqrt(d) <= r is modelled as d <= r^2."
  },
  {
   "property": "C31",
   "status": "proved",
   "theorems": [
    "Verif.Focal.C31_correlate",
    "Verif.Focal.C31_linear_in_kernel",
    "Verif.Focal.C31_linear_in_data",
    "Verif.Focal.C31_convolve",
    "Verif.Focal.C31_convolve_flip",
    "Verif.Focal.C31_rejected",
    "Verif.Focal.C31_too_large",
    "Verif.Focal.C31_product",
    "Verif.Focal.C31_sum"
   ],
   "note": "Finite data and weights that survive conversion to the float type; all modes, chunks and kernels whose margin fits the raster. Sums are exact and rounded once. scipy leaves out weights of at most 2.2e-16 (rasters without a null value), which the model counts."
  },
  {
   "property": "C32",
   "status": "proved",
   "theorems": [
    "Verif.Zonal.C32_mode",
    "Verif.Zonal.C32_nunique",
    "Verif.Zonal.C32_asm",
    "Verif.Zonal.C32_entropy",
    "Verif.Zonal.C32_arguments",
    "Verif.Zonal.aggregates_exists"
   ],
   "note": "Every spread of the cells over partitions and every tree of combinations. Rasters whose mask marks the cells equal to the null value, a feature null value other than NaN; the conversion of the data to float64 is part of the statement. dask's and pandas' group-by are modelled."
  },
  {
   "property": "C40",
   "status": "proved",
   "theorems": [
    "Verif.Utils.C40_2d",
    "Verif.Utils.C40_3d",
    "Verif.Utils.C40_flatten"
   ],
   "note": "All lists, shapes and start indices; too short lists raise IndexError."
  },
  {
   "property": "C33",
   "status": "partial",
   "theorems": [
    "Verif.Rasterize.C33_rasterize_partial",
    "Verif.Rasterize.C33_partitions_partial",
    "Verif.Rasterize.C33_mask",
    "Verif.Rasterize.C33_rejected",
    "Verif.Rasterize.C33_methods",
    "Verif.Rasterize.C33_rio_values",
    "Verif.Rasterize.C33_defaults",
    "Verif.Rasterize.C33_nan_null_value",
    "Verif.Rasterize.C33_nan_values",
    "Verif.Rasterize.C33_value_is_null_value",
    "Verif.Rasterize.C33_second_call",
    "Verif.Rasterize.C33_single_row_chunk",
    "Verif.Rasterize.C33_mask_null_value_one"
   ],
   "note": "Proved for every partitioning, chunking and tree reduction if the null value is no NaN, no value equals it, min/max see no NaN values, no chunk has a single row or column, and the spatial partitions on the vector cover its features. Counterexamples for each condition, among them a second call with the same vector after a call without spatial partitions. Which cells a geometry touches, clipping and sorting are given by laws."
  },
  {
   "property": "C34",
   "status": "partial",
   "theorems": [
    "Verif.Clip.C34_clip_partial",
    "Verif.Clip.C34_erase_partial",
    "Verif.Clip.C34_split_partial",
    "Verif.Clip.C34_mask_partial",
    "Verif.Clip.C34_envelope_partial",
    "Verif.Clip.C34_clip_box",
    "Verif.Clip.C34_rejected",
    "Verif.Clip.C34_single_row_chunk"
   ],
   "note": "Proved on top of the model of rasterize for rasters whose chunks (after trimming) have at least two rows and columns; otherwise both calls raise (proved). Which window a box selects is given by rioxarray."
  },
  {
   "property": "C36",
   "status": "partial",
   "theorems": [
    "Verif.Blocks.C36_depth_partial",
    "Verif.Blocks.C36_pair_for_bands",
    "Verif.Blocks.C36_asymmetric",
    "Verif.Blocks.C36_known_boundary",
    "Verif.Blocks.C36_boundary"
   ],
   "note": "Every depth and boundary argument. A pair of zeros for the band axis describes no band overlap but is rejected (counterexample); everything else holds. Booleans count as integers."
  },
  {
   "property": "C48",
   "status": "partial",
   "theorems": [
    "Verif.Blocks.C48_map_overlap",
    "Verif.Blocks.C48_chunks",
    "Verif.Blocks.C48_accepted",
    "Verif.Blocks.C48_map_blocks",
    "Verif.Blocks.C48_out_bands",
    "Verif.Blocks.C48_out_bands_rejected",
    "Verif.Blocks.C48_out_null_value_with_return_mask"
   ],
   "note": "All but the last sentence is proved. A function that names out_null_value with return_mask=True raises KeyError unless dtype, meta or null_value is given (counterexample). dask is modelled by its documented effect; the null value is a value of the raster's dtype."
  },
  {
   "property": "C49",
   "status": "partial",
   "theorems": [
    "Verif.Blocks.C49_block_info_partial",
    "Verif.Blocks.C49_exact_iff",
    "Verif.Blocks.C49_asymmetric",
    "Verif.Blocks.C49_first_block"
   ],
   "note": "Proved for equal depths on both sides, for every block with a boundary and blocks away from the edges without one; C49_exact_iff says exactly when it holds. Counterexamples: an asymmetric depth, and the first block without a boundary."
  },
  {
   "property": "C37",
   "status": "proved",
   "theorems": [
    "Verif.Surface.C37_slope",
    "Verif.Surface.C37_curvature",
    "Verif.Surface.C37_aspect",
    "Verif.Surface.C37_hillshade",
    "Verif.Surface.C37_hillshade_plane",
    "Verif.Surface.C37_constant",
    "Verif.Surface.C37_reads_inside",
    "Verif.Surface.C53_null_cells",
    "Verif.Surface.C53_hillshade"
   ],
   "note": "Real arithmetic and real trigonometric functions (no rounding, no infinities), every chunking. Curvature also on surfaces of second degree, hillshade as the cosine law for planes; the null edges are C53_null_cells and C53_hillshade."
  },
  {
   "property": "C50",
   "status": "partial",
   "theorems": [
    "Verif.Surface.C50_downhill_partial",
    "Verif.Surface.C50_south_up",
    "Verif.Surface.C50_rectangular_cells"
   ],
   "note": "Proved for square cells with rows from north to south. Counterexamples: rows from south to north (which only a ready-made xarray Dataset can have, as other inputs are flipped), and cells that are not square (aspect ignores the resolution)."
  },
  {
   "property": "C51",
   "status": "partial",
   "theorems": [
    "Verif.Surface.C51_area_partial",
    "Verif.Surface.C51_plane",
    "Verif.Surface.C51_rectangular_cells"
   ],
   "note": "Proved for square cells and all elevations. For other cells the code uses the cell width for both sides (counterexample)."
  },
  {
   "property": "C52",
   "status": "partial",
   "theorems": [
    "Verif.Surface.C52_downhill_partial",
    "Verif.Surface.C52_range",
    "Verif.Surface.C52_null",
    "Verif.Surface.C52_level"
   ],
   "note": "Proved for square cells with rows from north to south where the plane is not level. Level cells get the direction of one degree west of north (counterexample)."
  },
  {
   "property": "C53",
   "status": "partial",
   "theorems": [
    "Verif.Surface.C53_null_cells",
    "Verif.Surface.C53_hillshade",
    "Verif.Surface.C37_slope",
    "Verif.Surface.C37_aspect",
    "Verif.Surface.C37_hillshade",
    "Verif.Surface.C51_area_partial",
    "Verif.Surface.C53_next_to_null",
    "Verif.Surface.C53_lit_from_above"
   ],
   "note": "Which cells are null is proved for all but hillshade. The rest is false: cells beside a null cell hold NaN and are not null, and hillshade makes cells of brightness 255 null (counterexamples)."
  },
  {
   "property": "C39",
   "status": "partial",
   "theorems": [
    "Verif.Vector.C39_read",
    "Verif.Vector.C39_read_empty",
    "Verif.Vector.C39_partitions",
    "Verif.Vector.C39_size_partial",
    "Verif.Vector.C39_overcount",
    "Verif.Vector.C39_ids",
    "Verif.Vector.C39_ids_default",
    "Verif.Vector.C39_ids_shared",
    "Verif.Vector.C39_name"
   ],
   "note": "Ids, names and batches hold in full. The size from the divisions never overcounts only for frames with consecutive index values; for a filtered frame it does (C39_overcount). A layer without features raises UnboundLocalError (C39_read_empty)."
  },
  {
   "property": "C54",
   "status": "partial",
   "theorems": [
    "Verif.Vector.C54_access_partial",
    "Verif.Vector.C54_iterate_partial",
    "Verif.Vector.C54_open",
    "Verif.Vector.C54_other_index"
   ],
   "note": "Holds for vectors whose index is 0..n-1 and whose size is right, as for opened files and single features; for other index values vec[i] raises KeyError or gives another feature (C54_other_index)."
  },
  {
   "property": "C55",
   "status": "partial",
   "theorems": [
    "Verif.Reduce.C55_masked",
    "Verif.Reduce.C55_unmasked_partial",
    "Verif.Reduce.C55_unmasked_bands",
    "Verif.Reduce.C55_unmasked_single",
    "Verif.Reduce.C55_unique",
    "Verif.Reduce.C55_minband_partial",
    "Verif.Reduce.C55_maxband_partial",
    "Verif.Reduce.C55_minband_null",
    "Verif.Reduce.C55_unique_dtype",
    "Verif.Reduce.C55_half_precision",
    "Verif.Reduce.C55_rejected"
   ],
   "note": "Proved for rasters with a null value and any number of bands, and for single bands without one. Without a null value and with more bands the result keeps all bands, filled with NaN (C55_unmasked_bands). minband and maxband need a value that is not infinite; otherwise a null band can come out. The statistics are parameters that ignore NaN (C38)."
  },
  {
   "property": "C56",
   "status": "proved",
   "theorems": [
    "Verif.Reduce.C56_masked",
    "Verif.Reduce.C56_unmasked",
    "Verif.Reduce.C56_partition",
    "Verif.Reduce.C56_coordinates",
    "Verif.Reduce.C56_unique",
    "Verif.Reduce.C56_unique_dtype",
    "Verif.Reduce.C56_rejected",
    "Verif.Reduce.C56_errors",
    "Verif.Reduce.C56_mode_of_nan"
   ],
   "note": "All windows that fit, all statistics as functions that ignore NaN, stored in the dtype of the result; evenly spaced coordinates over any field. An undefined mode counts as 0 (part of the statement; C56_mode_of_nan). numpy's and xarray's own statistics are parameters."
  },
  {
   "property": "C57",
   "status": "proved",
   "theorems": [
    "Verif.Reduce.C57_predict",
    "Verif.Reduce.C57_outputs",
    "Verif.Reduce.C57_given",
    "Verif.Reduce.C57_rejected",
    "Verif.Reduce.C57_infinities"
   ],
   "note": "Every chunking, every row-wise model. NaN and infinite values reach the model as 0 and the largest numbers (part of the statement)."
  },
  {
   "property": "C58",
   "status": "proved",
   "theorems": [
    "Verif.Morph.C58_dilate",
    "Verif.Morph.C58_erode",
    "Verif.Morph.C58_unmasked",
    "Verif.Morph.C58_sizes",
    "Verif.Morph.C58_accepted",
    "Verif.Morph.C58_errors",
    "Verif.Morph.C58_infinity",
    "Verif.Morph.C58_default_null_value_in_use"
   ],
   "note": "Every size and chunking. Rasters without a null value get the default null value, which may occur as a valid value (witness); an infinite value next to the edge or a null cell is replaced by the limit of the dtype (witness outside the stated domain). bool rasters raise an error."
  },
  {
   "property": "C59",
   "status": "partial",
   "theorems": [
    "Verif.Morph.C59_adjoint",
    "Verif.Morph.C59_extensive",
    "Verif.Morph.C59_opening",
    "Verif.Morph.C59_closing_partial",
    "Verif.Morph.C59_closing_nulls",
    "Verif.Morph.C59_closing_loses_edges"
   ],
   "note": "Adjunction and opening in full. The closing is shown to be not smaller where it is valid, and its null cells are determined exactly; it is null near the edges although the raster is valid there, also for rasters without a null value (counterexample), so the last sentence is false of the code."
  },
  {
   "property": "C60",
   "status": "partial",
   "theorems": [
    "Verif.Build.C60_values",
    "Verif.Build.C60_orientation",
    "Verif.Build.C60_accepted",
    "Verif.Build.C60_refused",
    "Verif.Build.C60_errors",
    "Verif.Build.C60_twice",
    "Verif.Build.C60_nulls",
    "Verif.Build.C60_dataset",
    "Verif.Build.C60_dataset_refused",
    "Verif.Build.C60_fill_none",
    "Verif.Build.C60_dataset_south_up",
    "Verif.Build.C60_no_coordinates",
    "Verif.Build.C60_positional",
    "Verif.Build.C60_standard_dataset"
   ],
   "note": "Proved for DataArrays and for Datasets that have to be normalised, given that the search for spatial dimensions (rioxarray, odc-geo) finds dimensions called y and x. Counterexamples: a Dataset in the standard form keeps rows from south to north, and `_FillValue = None` makes NaN valid for objects in memory only."
  },
  {
   "property": "C61",
   "status": "partial",
   "theorems": [
    "Verif.Create.C61_full",
    "Verif.Create.C61_copy_mask_partial",
    "Verif.Create.C61_accepted",
    "Verif.Create.C61_errors",
    "Verif.Create.C61_random_errors",
    "Verif.Create.C61_random",
    "Verif.Create.C61_random_accepted",
    "Verif.Create.C61_zeros_ones",
    "Verif.Create.C61_mask_changes_dtype",
    "Verif.Create.C61_value_is_null_value"
   ],
   "note": "Proved in full without copy_mask, and with it if a dtype is given or the value has the dtype of the template. Otherwise the dtype is promoted with the null value of the template (counterexample). The value may equal the null value (witness). Random and uninitialised data are parameters."
  },
  {
   "property": "C62",
   "status": "proved",
   "theorems": [
    "Verif.Whole.C62_min",
    "Verif.Whole.C62_max",
    "Verif.Whole.C62_sum",
    "Verif.Whole.C62_sum_infinite",
    "Verif.Whole.C62_mean",
    "Verif.Whole.C62_all_any"
   ],
   "note": "All chunkings and all trees of combination. Sums are exact (no rounding, no integer overflow); dask's reduction is modelled by its documented tree. prod, std and var are numpy's and dask's own and are left out."
  },
  {
   "property": "C63",
   "status": "partial",
   "theorems": [
    "Verif.Files.C63_round_trip_partial",
    "Verif.Files.C63_int64",
    "Verif.Files.C63_null_value",
    "Verif.Files.C63_refused",
    "Verif.Files.C63_opened_null_value",
    "Verif.Files.C63_valid_null_value",
    "Verif.Files.C63_nan_without_null_value",
    "Verif.Files.C63_unsigned_null_value",
    "Verif.Files.C63_large_values_rounded"
   ],
   "note": "Proved if no valid cell holds the null value (not needed for booleans), a raster without null value has no NaN, values of int64 rasters that are written as float64 are doubles, and a uint64 null value is at most 2^53. Each of these is needed (counterexamples; the last one for a GDAL that keeps no more than io.py says). GDAL, rasterio and rioxarray are parameters with the stated laws; grid and CRS are left out."
  },
  {
   "property": "C64",
   "status": "proved",
   "theorems": [
    "Verif.Files.C64_tile_order",
    "Verif.Files.C64_band_order",
    "Verif.Files.C64_tile_contents",
    "Verif.Files.C64_band_contents",
    "Verif.Files.C64_extension"
   ],
   "note": "All prefixes, extensions and numbers of chunks. What a chunk raster holds is C21; the extension for a driver is rasterio's."
  },
  {
   "property": "C65",
   "status": "proved",
   "theorems": [
    "Verif.Files.C65_overviews"
   ],
   "note": "All sizes, for all drivers but COG, which builds its own. The division min(h, w) / f is exact, as f is a power of two."
  },
  {
   "property": "C66",
   "status": "proved",
   "theorems": [
    "Verif.Extract.C66_accepted",
    "Verif.Extract.C66_refused",
    "Verif.Extract.C66_errors",
    "Verif.Extract.C66_rows",
    "Verif.Extract.C66_columns",
    "Verif.Extract.C66_unique",
    "Verif.Extract.C66_to_points"
   ],
   "note": "All rasters with an invertible affine. The conversion to double is a parameter, so integers beyond 2^53 may be rounded by it. An empty set of points, for which dask may raise an error, and the partitions of the result are left out."
  },
  {
   "property": "C67",
   "status": "partial",
   "theorems": [
    "Verif.Polygons.C67_polygons_partial",
    "Verif.Polygons.C67_independent",
    "Verif.Polygons.C67_accepted",
    "Verif.Polygons.C67_errors",
    "Verif.Polygons.C67_large_integers",
    "Verif.Polygons.C67_doubles",
    "Verif.Polygons.C67_nan"
   ],
   "note": "Proved if the values fit rasterio's types (int32 for 64 bit and uint32 rasters, single precision for doubles) and none is NaN. Otherwise different values share a row and NaN cells are left out (counterexamples). rasterio's shapes is a parameter with two laws (groups are of one value; every cell is in a group); a geometry is the region of its cells."
  },
  {
   "property": "C68",
   "status": "partial",
   "theorems": [
    "Verif.Lines.C68_length_partial",
    "Verif.Lines.C68_other_fields",
    "Verif.Lines.C68_accepted",
    "Verif.Lines.C68_batches",
    "Verif.Lines.C68_errors"
   ],
   "note": "Proved without a weighting field and with one called \"weights\"; any other name raises an AttributeError as soon as a feature is near (a call of rename without columns=). shapely, geopandas and rasterio are parameters with three laws (clipping, parts, touched cells); the law on touched cells is an approximation of what polygons in place of circles do. Lengths are exact numbers. A radius larger than the raster is refused."
  },
  {
   "property": "C69",
   "status": "partial",
   "theorems": [
    "Verif.Batch.C69_script_partial",
    "Verif.Batch.C69_statement_unique",
    "Verif.Batch.C69_broken_functions",
    "Verif.Batch.C69_arithmetic",
    "Verif.Batch.C69_remap",
    "Verif.Batch.C69_malformed",
    "Verif.Batch.C69_not_a_call",
    "Verif.Batch.C69_call_fails",
    "Verif.Batch.C69_save_errors",
    "Verif.Batch.C69_null_errors",
    "Verif.Batch.C69_composite_errors",
    "Verif.Batch.C69_nothing",
    "Verif.Batch.C69_open_blanks",
    "Verif.Batch.C69_save_default"
   ],
   "note": "The scripts that succeed and their results are determined exactly. ARITHMETIC, EXTRACTBAND, REMAP and SETNULL fail for every input, and the argument of OPENRASTER is not stripped (both proved), so the statement is false of the code for these. What the operations do to rasters, the file system and Python's float and int are parameters; only blanks of ASCII are stripped."
  },
  {
   "property": "C70",
   "status": "partial",
   "theorems": [
    "Verif.Tpi.C70_tpi_partial",
    "Verif.Tpi.C70_accepted",
    "Verif.Tpi.C70_errors",
    "Verif.Tpi.C70_empty_annulus",
    "Verif.Tpi.C70_holes"
   ],
   "note": "Proved for all rasters with a null value, and for those without one where the annulus has a cell; otherwise NaN is converted to int32 and the cell is valid (counterexample). Arithmetic is exact, values are finite and the result lies between -2^31 and 2^31. Negative values are not rounded as positive ones are (witness), as documented."
  },
  {
   "property": "C71",
   "status": "partial",
   "theorems": [
    "Verif.CostRaster.C71_cost_distance_partial",
    "Verif.CostRaster.C71_accepted",
    "Verif.CostRaster.C71_errors",
    "Verif.CostRaster.C71_unsigned",
    "Verif.CostRaster.C71_negative_source",
    "Verif.CostRaster.C71_elevation_9999",
    "Verif.CostRaster.C71_float16_elevation",
    "Verif.CostRaster.C71_null_zero"
   ],
   "note": "Proved for all costs and elevations whose nulls can be replaced by -1 and -9999, finite elevations other than -9999, and sources whose values fit into int64. The statement is false of the code otherwise: valid elevations of -9999 are taken for null, null elevations in float16 are crossed, a source in a cell of negative cost is valid (counterexamples), and with NumPy 2 unsigned costs with a null value are rejected. A valid distance can equal the null value. Distances are exact; the square root is any nonnegative function."
  },
  {
   "property": "C72",
   "status": "partial",
   "theorems": [
    "Verif.ProxRaster.C72_sources_partial",
    "Verif.ProxRaster.C72_nearest_partial",
    "Verif.ProxRaster.C72_accepted",
    "Verif.ProxRaster.C72_chunks",
    "Verif.ProxRaster.C72_distances_distinct",
    "Verif.ProxRaster.C72_direction_zero",
    "Verif.ProxRaster.C72_null_is_source",
    "Verif.ProxRaster.C72_allocation_lost",
    "Verif.ProxRaster.C72_distance_refused",
    "Verif.ProxRaster.C72_margin_is_source"
   ],
   "note": "That every report is of a real source in reach, and that sources report themselves, is proved for every metric; nearest sources and independence of the chunks for the city block and chessboard metrics on regular grids (false for the Euclidean one, C41). Needed: conversions to float change no value; the null value of bool, int8, uint8 and float16 rasters is not a target value (counterexample: null cells become sources); no reported value equals the default null value (counterexample: allocations of 255 or True are lost); the margin of integer rasters is no source (counterexample). Distances longer than a side but shorter than the diagonal are refused (counterexample). Square root, angle and great circle are parameters; distances are exact."
  },
  {
   "property": "C73",
   "status": "proved",
   "theorems": [
    "Verif.Pair.C73_accepted",
    "Verif.Pair.C73_pairs",
    "Verif.Pair.C73_array_accepted",
    "Verif.Pair.C73_array",
    "Verif.Pair.C73_array_errors",
    "Verif.Pair.C73_errors",
    "Verif.Pair.C73_bands_lost",
    "Verif.Pair.C73_empty",
    "Verif.Pair.C73_two_results_fail"
   ],
   "note": "xarray's inner join (with the order of the first), the refusal of in-place operations on different coordinates and NumPy's broadcasting are modelled explicitly. Functions with two results are accepted only if a raster has a null value (C14). The type checks of __array_ufunc__ and the CRS, which is never compared, are left out."
  },
  {
   "property": "C74",
   "status": "partial",
   "theorems": [
    "Verif.Pair.C74_accepted",
    "Verif.Pair.C74_bandwise",
    "Verif.Pair.C74_width_matters"
   ],
   "note": "The accepted arrays and the results are determined exactly. A list with one value per band is refused if the raster is one column wide or has as many columns as bands (counterexample), so the statement is false of the code there."
  },
  {
   "property": "C75",
   "status": "partial",
   "theorems": [
    "Verif.Boxes.C75_equal",
    "Verif.Boxes.C75_same_partial",
    "Verif.Boxes.C75_union",
    "Verif.Boxes.C75_union_aligned",
    "Verif.Boxes.C75_intersection_partial",
    "Verif.Boxes.C75_intersection_accepted",
    "Verif.Boxes.C75_intersection_aligned_partial",
    "Verif.Boxes.C75_stack_partial",
    "Verif.Boxes.C75_stack_equal",
    "Verif.Boxes.C75_given_grid",
    "Verif.Boxes.C75_rejected",
    "Verif.Boxes.C75_rejected_errors",
    "Verif.Boxes.C75_drift",
    "Verif.Boxes.C75_shift",
    "Verif.Boxes.C75_order",
    "Verif.Boxes.C75_square",
    "Verif.Boxes.C75_resolution_kept",
    "Verif.Boxes.C75_touching",
    "Verif.Boxes.C75_beyond",
    "Verif.Boxes.C75_units"
   ],
   "note": "Exact for grids on one lattice of square pixels that have a common cell. In general the union is proved to cover all grids up to 1/50 of a pixel, and union and intersection to exceed the grids by less than two pixels. The statement is false of the code: grids taken for the same can be pixels apart (the tolerance applies to the pixel size and to the longer side), grids that touch have an intersection that one of them lacks, pixels that are not square become square, and the resolution of the first grid is used in the units of another CRS (counterexamples). odc-geo's from_bbox, zoom_to and extent are modelled explicitly; its change of a grid's CRS is a parameter. Numbers are exact."
  },
  {
   "property": "C76",
   "status": "partial",
   "theorems": [
    "Verif.ZonalTable.C76_wide",
    "Verif.ZonalTable.C76_accepted",
    "Verif.ZonalTable.C76_vector",
    "Verif.ZonalTable.C76_overlap",
    "Verif.ZonalTable.C76_vector_rejected",
    "Verif.ZonalTable.C76_names",
    "Verif.ZonalTable.C76_disjoint",
    "Verif.ZonalTable.C76_long",
    "Verif.ZonalTable.C76_long_parts",
    "Verif.ZonalTable.C76_long_order",
    "Verif.ZonalTable.C76_long_order_partial",
    "Verif.ZonalTable.C76_vector_long_partial",
    "Verif.ZonalTable.C76_location",
    "Verif.ZonalTable.C76_index",
    "Verif.ZonalTable.C76_band_ten",
    "Verif.ZonalTable.C76_chunks",
    "Verif.ZonalTable.C76_zone_zero"
   ],
   "note": "The wide format is proved in full. The statement is false of the code as to the rest: the long format orders bands as text (band 10 before band 2) and keeps the row numbers from before sorting, a feature raster in other chunks than dask would choose is refused if the data have several bands, the position of a feature raster is not compared, and features whose zone is the null value (index -1) have no row (counterexamples). Statistics are parameters that do not depend on the order of the values (those of the library: C32); repeated names are not modelled; the raster of the features is that of C33 with method 'last'. groupby's keys are ascending and not NaN, join and concat of tables go by zone and by row."
  },
  {
   "property": "C77",
   "status": "partial",
   "theorems": [
    "Verif.RemapFile.C77_line",
    "Verif.RemapFile.C77_blank",
    "Verif.RemapFile.C77_refused",
    "Verif.RemapFile.C77_file",
    "Verif.RemapFile.C77_get",
    "Verif.RemapFile.C77_get_errors",
    "Verif.RemapFile.C77_duplicate",
    "Verif.RemapFile.C77_roundtrip",
    "Verif.RemapFile.C77_sign_alone"
   ],
   "note": "Which lines and files are read, and as what, is proved in full, for the backtracking regular expression as it is written. The statement is false of the code as to the error for a sign or an exponent in the place of a number, as in '-:5' (counterexample): the regular expression accepts it, and int or float raises a bare ValueError. ASCII only; the digits of an int are not limited; the rounding of decimals to floats is a parameter."
  },
  {
   "property": "C78",
   "status": "partial",
   "theorems": [
    "Verif.PredictVector.C78_rows",
    "Verif.PredictVector.C78_one",
    "Verif.PredictVector.C78_names",
    "Verif.PredictVector.C78_rejected",
    "Verif.PredictVector.C78_wrong_outputs",
    "Verif.PredictVector.C78_not_numeric",
    "Verif.PredictVector.C78_broadcast",
    "Verif.PredictVector.C78_single_row",
    "Verif.PredictVector.C78_wrong_rows",
    "Verif.PredictVector.C78_no_valid_rows"
   ],
   "note": "The rows are proved in full for models that take any number of rows. The statement is false of the code in two ways (proved for all tables): a model with a single output fills all n_outputs columns without an error (and one with a single row all rows), and for a partition without a valid row the model is called with no rows, so a model that refuses that (those of scikit-learn do) fails or not depending on the partitions. The model is a parameter; predictions are not rounded to float64; vectors without a table are left out."
  },
  {
   "property": "C79",
   "status": "partial",
   "theorems": [
    "Verif.Warp.C79_grid",
    "Verif.Warp.C79_cells_partial",
    "Verif.Warp.C79_nearest_partial",
    "Verif.Warp.C79_same",
    "Verif.Warp.C79_rejected",
    "Verif.Warp.C79_tuple",
    "Verif.Warp.C79_value_lost",
    "Verif.Warp.C79_turned"
   ],
   "note": "Proved for rasters without valid cells that hold the null value and resolutions that are numbers, where no resampled value is the null value of the result. The statement is false of the code for a tuple as the resolution, which raises a TypeError, and for rasters without a null value: they get the default one, and cells that hold it (255 in uint8) become null or change (both proved for all rasters). A geobox with rows from south to north is turned. odc-geo's change of grids and GDAL's resampling are parameters; boolean rasters are left out."
  },
  {
   "property": "C80",
   "status": "partial",
   "theorems": [
    "Verif.FromData.C80_cells",
    "Verif.FromData.C80_accepted",
    "Verif.FromData.C80_rejected",
    "Verif.FromData.C80_orientation",
    "Verif.FromData.C80_like",
    "Verif.FromData.C80_lists"
   ],
   "note": "The cells and the accepted arguments are proved in full. The statement is false of the code for coordinates in lists, which are documented: x raises a TypeError, and y, which is never checked, an AttributeError (proved for all arrays). Coordinates are exact; the dtype of burned data is taken to be that of the data; match_band_dim of data_to_xr_raster_like, chunks and the CRS are left out."
  },
  {
   "property": "C81",
   "status": "partial",
   "theorems": [
    "Verif.OpenDataset.C81_names",
    "Verif.OpenDataset.C81_values_partial",
    "Verif.OpenDataset.C81_accepted",
    "Verif.OpenDataset.C81_rejected",
    "Verif.OpenDataset.C81_too_few",
    "Verif.OpenDataset.C81_transposed",
    "Verif.OpenDataset.C81_one_row",
    "Verif.OpenDataset.C81_irregular",
    "Verif.OpenDataset.C81_default_lost"
   ],
   "note": "Proved for variables whose dimensions are in the order band, rows, columns, on equally spaced coordinates without a stored transform, and, if no null value (or NaN) is stated, for elements other than the default null value. The statement is false of the code otherwise: dimensions are not transposed, a variable with one row or column is refused, uneven coordinates are replaced by even ones, the default null value becomes null (uint8 255), and variables with fewer than two dimensions are an error even if such errors are to be ignored (all proved, the uneven and the default case by counterexample). What xarray and rioxarray read is a parameter; rioxarray's transform is modelled for at least two rows and columns."
  },
  {
   "property": "C82",
   "status": "partial",
   "theorems": [
    "Verif.Layers.C82_layers_partial",
    "Verif.Layers.C82_readers",
    "Verif.Layers.C82_errors",
    "Verif.Layers.C82_names_repeat",
    "Verif.Layers.C82_no_features",
    "Verif.Layers.C82_get_vector",
    "Verif.Layers.C82_save",
    "Verif.Layers.C82_count"
   ],
   "note": "Proved for layers with different names that all have features; the errors without conditions. The statement is false of the code otherwise: layers go by name even for None, so a name that repeats gives the first layer twice; a layer without features is an error of the reader without pyogrio (both by counterexample); and save into a file with other layers returns a list of all layers (proved in general). dgpd.read_file and OGR are parameters that are asked to number the features; GDAL's writing keeps the other layers."
  },
  {
   "property": "C83",
   "status": "partial",
   "theorems": [
    "Verif.Layers.C83_derived_partial",
    "Verif.Layers.C83_load",
    "Verif.Layers.C83_attributes_lost",
    "Verif.Layers.C83_to_crs_fails",
    "Verif.Layers.C83_shuffle_size",
    "Verif.Layers.C83_order"
   ],
   "note": "Proved for vectors with consecutive index values, and for load with index values in order. The statement is false of the code otherwise: buffer and simplify drop all attributes (proved for all vectors); to_crs of a vector whose index has gaps, such as a selection of rows, raises a ValueError (proved for all such pairs of rows); spatial_shuffle gives a wrong size and frames in memory that are not in the order of their index are sorted (counterexamples). Geometry and dask_geopandas' shuffle are parameters; frames without rows and the cast of the geometry are left out."
  },
  {
   "property": "C84",
   "status": "partial",
   "theorems": [
    "Verif.GeoBlocks.C84_geo_map_blocks",
    "Verif.GeoBlocks.C84_out_bands",
    "Verif.GeoBlocks.C84_plain",
    "Verif.GeoBlocks.C84_plain_blocks",
    "Verif.GeoBlocks.C84_accepted",
    "Verif.GeoBlocks.C84_displaced",
    "Verif.GeoBlocks.C84_geo_map_overlap_partial",
    "Verif.GeoBlocks.C84_chunks",
    "Verif.GeoBlocks.C84_grids",
    "Verif.GeoBlocks.C84_chunks_matter",
    "Verif.GeoBlocks.C84_asymmetric",
    "Verif.GeoBlocks.C84_band_labels"
   ],
   "note": "geo_map_blocks is proved in full as to y and x, and geo_map_overlap for depths of 0 and for equal depths on both sides with a boundary; C84_displaced says for all depths by how many cells the coordinates are off. The statement is false of the code otherwise: without a boundary, or with asymmetric depths, the coordinates of blocks are off, and the result depends on the chunks (counterexamples). The bands of blocks are labelled from 0, though those of rasters are numbered from 1 (counterexample). Grids may differ by the tolerance of C75. Exact numbers, straight grids; the checks of keyword arguments are left out."
  },
  {
   "property": "C85",
   "status": "partial",
   "theorems": [
    "Verif.PadBox.C85_grid",
    "Verif.PadBox.C85_cells",
    "Verif.PadBox.C85_extent_partial",
    "Verif.PadBox.C85_half",
    "Verif.PadBox.C85_inside",
    "Verif.PadBox.C85_targets",
    "Verif.PadBox.C85_more_targets",
    "Verif.PadBox.C85_uncovered"
   ],
   "note": "C85_grid says for every target which rows and columns the result has. C85_extent_partial proves the extent for the sides of the target that are edges of cells of the raster's grid; C85_half bounds what is missing otherwise by half a cell. The statement is false of the code for other sides: a target that ends in the first half of a cell, or in its middle, is not covered (counterexample). Exact numbers; rioxarray's pad_box is modelled."
  },
  {
   "property": "C86",
   "status": "partial",
   "theorems": [
    "Verif.Coarse.C86_grid_partial",
    "Verif.Coarse.C86_coordinates",
    "Verif.Coarse.C86_single"
   ],
   "note": "Proved in full for results with at least two rows and two columns; the coordinates are proved for all. The statement is false of the code for results with a single row or column: they have the resolution of the raster that was aggregated, or (1, 1) (proved for all such rasters), so affine, bounds, xy and index are wrong. Exact numbers; rioxarray's resolution and transform are modelled, and whether xr.where keeps attributes is a parameter."
  },
  {
   "property": "C87",
   "status": "partial",
   "theorems": [
    "Verif.GreatCircle.C87_distance",
    "Verif.GreatCircle.C87_metric",
    "Verif.GreatCircle.C87_accepted",
    "Verif.GreatCircle.C87_rows",
    "Verif.GreatCircle.C87_covered_partial",
    "Verif.GreatCircle.C87_bent",
    "Verif.GreatCircle.C87_south",
    "Verif.GreatCircle.C87_seam",
    "Verif.GreatCircle.C87_around",
    "Verif.GreatCircle.C87_single",
    "Verif.GreatCircle.C87_two_largest",
    "Verif.GreatCircle.C87_errors"
   ],
   "note": "The distance and the check of the coordinates are proved for all coordinates, over the real numbers with the trigonometric functions of Mathlib. The overlap is proved to be enough rows for all evenly spaced latitudes, and enough columns for rasters that reach no further south than north and whose top row is nearly straight. The statement is false of the code otherwise, by counterexamples in which a cell within max_distance of the source is null: wide rasters near the pole (C87_bent), rasters in the south (C87_south), and rasters around the globe, even in one chunk (C87_around; C87_seam says in general that the sweep never crosses the end of the raster). Rasters with one row or column raise an error (C87_single). Rounding is not modelled."
  },
  {
   "property": "C88",
   "status": "partial",
   "theorems": [
    "Verif.MosaicRaster.C88_mosaic_partial",
    "Verif.MosaicRaster.C88_sum_partial",
    "Verif.MosaicRaster.C88_aligned",
    "Verif.MosaicRaster.C88_rejected",
    "Verif.MosaicRaster.C88_nan",
    "Verif.MosaicRaster.C88_close",
    "Verif.MosaicRaster.C88_boolean",
    "Verif.MosaicRaster.C88_nan_integer",
    "Verif.MosaicRaster.C88_value_errors",
    "Verif.MosaicRaster.C88_default_resampling"
   ],
   "note": "C88_mosaic_partial proves the statement for all lists of rasters whose null values are that of the result or not close to it, if that fits the dtype; valid cells that hold the null value of the result do not count (C10). The statement is false of the code otherwise: with NaN as null value of the result, null cells of rasters with another null value become valid cells with the default null value of the dtype and hide valid cells (C88_nan, for all such rasters); so do null cells of rasters whose null value is close to that of the result (C88_close); booleans raise an error for 'min' and 'max' (C88_boolean); rasters with NaN cannot be converted to integers without a null_value (C88_nan_integer). 'sum' is proved for fewer than seven rasters (C88_sum_partial; see C12 for more). combine_grids, grids_close and the resampling are parameters."
  },
  {
   "property": "C89",
   "status": "partial",
   "theorems": [
    "Verif.Round.C89_nulls",
    "Verif.Round.C89_values_partial",
    "Verif.Round.C89_integers",
    "Verif.Round.C89_idempotent",
    "Verif.Round.C89_monotone",
    "Verif.Round.C89_wraps",
    "Verif.Round.C89_becomes_null_value"
   ],
   "note": "Mask, null value and null cells are proved in full; the values where the rounded number is a number of the dtype, which all are for exact floats, and for integers with decimals >= 0. The statement is false of the code for integers and negative decimals otherwise: 255 in uint8 rounded to tens is no multiple as near (C89_wraps, for any conversion to uint8). A valid cell may be rounded to the null value and then be valid in the mask but null in a saved file (C89_becomes_null_value). Booleans are left out."
  },
  {
   "property": "C90",
   "status": "partial",
   "theorems": [
    "Verif.Trips.C90_polygons_partial",
    "Verif.Trips.C90_mask",
    "Verif.Trips.C90_default_lost"
   ],
   "note": "Proved on top of C67 and C33: for values rasterio can work with (C67), chunks with at least two rows and columns, and a null value of the result that no cell holds. The statement is false of the code otherwise: without null_value cells that hold the default null value of the dtype become null (C90_default_lost), and see C67 and C33 for 64 bit values. Geometry is a parameter: a polygon is burned into the cells whose centre it covers."
  },
  {
   "property": "C91",
   "status": "proved",
   "theorems": [
    "Verif.Trips.C91_four",
    "Verif.Trips.C91_eight"
   ],
   "note": "Proved on top of C71 for all rasters, constants and sources that C71 covers. The square root is a parameter; it must be exact on the squares of the two cell sizes, and for 8 neighbours the diagonal must be at least as long as either side and at most as long as both together. Exact numbers."
  },
  {
   "property": "C92",
   "status": "partial",
   "theorems": [
    "Verif.Trips.C92_patches_partial",
    "Verif.Trips.C92_null_value",
    "Verif.Trips.C92_lost",
    "Verif.Trips.C92_label_is_null_value"
   ],
   "note": "Proved on top of C28 and C76 for rasters whose null value, converted to uint64 for the labels, is not a label of a cell; C92_null_value says that any but the numbers from 0 to the number of cells will do. The statement is false of the code otherwise: the result of regions inherits the null value of the raster, and a patch whose label is that number is missing in the table (C92_lost for all rasters, C92_label_is_null_value for a row 7, null, 7 with null value 1). The labelling of a binary image is a parameter with the laws of scipy's label; statistics are any functions that do not depend on the order of values."
  },
  {
   "property": "C93",
   "status": "partial",
   "theorems": [
    "Verif.Trips.C93_sum_partial",
    "Verif.Trips.C93_max_min",
    "Verif.Trips.C93_mean_partial",
    "Verif.Trips.C93_half_precision"
   ],
   "note": "Proved on top of C56 and C62. Maximum and minimum without restriction other than that the dtype of the result holds the values. Sum and mean if the dtype of the result holds the sums and means of the windows. The sum is false of the code otherwise: 8 bit rasters with a null value are summed as float16, and nine cells of 255 become 2296 (C93_half_precision; the only laws used are that 255 is a float16 and that 2295 is rounded to 2296). Statistics are parameters with the laws of sum, max, min and mean on finite lists."
  },
  {
   "property": "C94",
   "status": "partial",
   "theorems": [
    "Verif.Trips.C94_west_east",
    "Verif.Trips.C94_north_south",
    "Verif.Trips.C94_transposed_partial",
    "Verif.Trips.C94_transposed_area",
    "Verif.Trips.C94_stretched",
    "Verif.Trips.C94_inverted"
   ],
   "note": "Proved for all rasters and cells over real numbers with NaN, for any chunks of both rasters. The area is transposed for square cells only; it is false of the code for others, as surface_area_3d takes both sides of a cell to be its width (C94_transposed_area: 4 and 1 for a level surface with cells of 2 by 1 units)."
  },
  {
   "property": "C95",
   "status": "partial",
   "theorems": [
    "Verif.Nulls.C95_numpy1_partial",
    "Verif.Nulls.C95_numpy2_partial",
    "Verif.Nulls.C95_nan_infinite",
    "Verif.Nulls.C95_largest_replaced",
    "Verif.Nulls.C95_numpy2_replaced"
   ],
   "note": "The exact condition for both casting rules. False: float32's largest and lowest number are replaced by -999999 (both NumPy versions); with NumPy 2 so is -99999, and 2049.5 becomes 2050, for it is rounded to float16 first."
  },
  {
   "property": "C96",
   "status": "partial",
   "theorems": [
    "Verif.Trips.C96_values",
    "Verif.Trips.C96_apart",
    "Verif.Trips.C96_file_partial",
    "Verif.Trips.C96_default_null",
    "Verif.Trips.C96_mode"
   ],
   "note": "Proved on top of C46, C15, C24, C58, C34 and C63 for rasters that are not boolean and have a null value that their dtype represents; the file also not for int64 and for large null values of uint64 (see C63). False of the code without a null value: set_null gives the raster the default null value, which other cells may hold (C96_default_null). False for 'mode': aggregate uses the default null value of the dtype whatever that of the raster is, and windows where that number is the most frequent one are null in the file (C96_mode)."
  },
  {
   "property": "C97",
   "status": "proved",
   "theorems": [
    "Verif.Trips.Zones.C97_sums",
    "Verif.Trips.Zones.C97_counts",
    "Verif.Trips.Zones.C97_total",
    "Verif.Trips.Zones.C97_extremes"
   ],
   "note": "On top of C76 and C62, in exact arithmetic. The statistics of a group are those of pandas by their specification (NaN left out); valid cells hold numbers that float64 represents; masks are those of the null values, as for C76."
  },
  {
   "property": "C98",
   "status": "proved",
   "theorems": [
    "Verif.Trips.Windows.C98_max_dilate",
    "Verif.Trips.Windows.C98_min_erode",
    "Verif.Trips.Windows.C98_unmasked",
    "Verif.Trips.Windows.C98_sum",
    "Verif.Trips.Windows.C98_even"
   ],
   "note": "On top of C58, C29, C30 and C31. Values that are not null are finite numbers that the floating point type of focal represents and that lie within the limits of the dtype (as for C58); the maximum, minimum and sum of a list are given by their specifications. Odd sides are needed for the minimum: for two columns focal takes the right neighbour and erode the left one (C98_even)."
  },
  {
   "property": "C99",
   "status": "partial",
   "theorems": [
    "Verif.Trips.Stacks.C99_mosaic_partial",
    "Verif.Trips.Stacks.C99_null_value_held",
    "Verif.Trips.Stacks.C99_without_null_value"
   ],
   "note": "On top of C88, C47 and C55, with the restrictions of C88 on null values; the values are exact in the dtypes involved. Needed: one raster at least has a null value, and no valid cell holds the null value of the mosaic. False of the code otherwise: such a cell is null in the mosaic only (C99_null_value_held), and without null values the statistic has as many bands as the stack (C99_without_null_value, see C55)."
  },
  {
   "property": "C100",
   "status": "partial",
   "theorems": [
    "Verif.Versions.C100_release_partial",
    "Verif.Versions.C100_flags_partial",
    "Verif.Versions.C100_sign",
    "Verif.Versions.C100_letters",
    "Verif.Versions.C100_short"
   ],
   "note": "Proved for releases written with at least as many numbers as the bound. False of the code otherwise: any version with a letter or another character that int() does not take, such as a release candidate, a development version or a local build, is a ValueError (C100_letters), so that the package cannot be imported with it; a version written with fewer numbers that agree with the bound counts as older (C100_short). Digits and blanks other than those of ASCII, which int() takes as well, are left out."
  },
  {
   "property": "C101",
   "status": "partial",
   "theorems": [
    "Verif.Trips.Twice.C101_sum_partial",
    "Verif.Trips.Twice.C101_max_min_partial",
    "Verif.Trips.Twice.C101_mean_partial",
    "Verif.Trips.Twice.C101_mean_nulls"
   ],
   "note": "On top of C56, for finite numbers that the dtypes of the results hold. Proved for 'sum', 'max' and 'min', and for 'mean' without null cells. False of means beside null cells (C101_mean_nulls). The raster need not be a multiple of the windows."
  },
  {
   "property": "C102",
   "status": "partial",
   "theorems": [
    "Verif.Trips.Points.C102_points_partial",
    "Verif.Trips.Points.C102_default_lost"
   ],
   "note": "On top of C22 and C33, with the conditions of C33; a point is burned into the cell that it is in. Proved for a projected CRS (with a geographic one to_points raises, C22) if no cell holds the null value of the result; false otherwise, e.g. for the default null value of the dtype (C102_default_lost). Valid NaN cells come back with 'first' and 'last'."
  },
  {
   "property": "C103",
   "status": "proved",
   "theorems": [
    "Verif.Trips.Tables.C103_tables",
    "Verif.Trips.Tables.C103_fractions"
   ],
   "note": "On top of C25 and C26; the conversions of the numbers involved are exact and the new values have a common dtype. C103_fractions shows that whole numbers are needed."
  },
  {
   "property": "C104",
   "status": "proved",
   "theorems": [
    "Verif.ClipBox.C104_clip_box",
    "Verif.ClipBox.C104_four"
   ],
   "note": "On top of C34. The window of rioxarray's clip_box (from_bounds and isel_window) is modelled in exact arithmetic; what auto_expand does about fewer than two rows or columns is a parameter."
  },
  {
   "property": "C105",
   "status": "proved",
   "theorems": [
    "Verif.ClipBox.C105_pad_clip"
   ],
   "note": "On top of C24, C85 and C104. Without null value and fill, pad sets the default null value, which stays."
  },
  {
   "property": "C106",
   "status": "proved",
   "theorems": [
    "Verif.Trips.Single.C106_correlate",
    "Verif.Trips.Single.C106_convolve",
    "Verif.Trips.Single.C106_middle",
    "Verif.Trips.Single.C106_focal",
    "Verif.Trips.Single.C106_one_cell"
   ],
   "note": "On top of C29, C30 and C31. The numbers of the raster are finite and survive the conversion to the floating point type in use, zero too, and the chunks cover the raster (as for C31). focal is treated for rasters with a null value, also with a window of any shape that has a single cell; the statistic is any that ignores NaN and gives back a single number (not the count of unique values)."
  },
  {
   "property": "C107",
   "status": "proved",
   "theorems": [
    "Verif.Kwargs.C107_accepted",
    "Verif.Kwargs.C107_received",
    "Verif.Kwargs.C107_kept",
    "Verif.Kwargs.C107_dtype",
    "Verif.Kwargs.C107_pack",
    "Verif.Kwargs.C107_pack_errors"
   ],
   "note": "dask is taken to hand the keyword arguments that are not its own options to the wrapper as they are. What the extras are is the subject of C48, C49 and C84."
  },
  {
   "property": "C108",
   "status": "proved",
   "theorems": [
    "Verif.Trips.Pieces.C108_pieces",
    "Verif.Trips.Pieces.C108_quadrants",
    "Verif.Trips.Pieces.C108_chunks",
    "Verif.Trips.Pieces.C108_cells"
   ],
   "note": "On top of C79 and C88. The nearest neighbour on a grid whose pixels are pixels of the destination is the pixel at the same coordinates (a law for GDAL), and grids_close tells a part from the whole. Pieces have a grid, which rioxarray finds only for two or more rows and columns. The grid of the mosaic is the raster's, given or as the union."
  },
  {
   "property": "C109",
   "status": "proved",
   "theorems": [
    "Verif.Trips.Clips.C109_masks",
    "Verif.Trips.Clips.C109_order",
    "Verif.Trips.Clips.C109_nothing",
    "Verif.Trips.Clips.C109_mask_clip",
    "Verif.Trips.Clips.C109_boxes",
    "Verif.Trips.Clips.C109_nested"
   ],
   "note": "On top of C34 and C104, with their conditions: rasterio's laws for burned features, chunks of two or more rows and columns (otherwise nothing is returned, C34_single_row_chunk), boxes that meet two rows and columns."
  },
  {
   "property": "C110",
   "status": "proved",
   "theorems": [
    "Verif.Trips.Expressions.C110_cells",
    "Verif.Trips.Expressions.C110_laws",
    "Verif.Trips.Expressions.C110_accepted"
   ],
   "note": "On top of C14 and C73, by induction on the expression. The ufuncs (type resolution and values) are parameters. Numbers are scalars; arrays and bandwise operands are the subject of C73 and C74. That expressions with null values on different grids fail is C73_accepted."
  },
  {
   "property": "C111",
   "status": "proved",
   "theorems": [
    "Verif.Trips.Choices.C111_cells",
    "Verif.Trips.Choices.C111_swapped",
    "Verif.Trips.Choices.C111_and",
    "Verif.Trips.Choices.C111_or",
    "Verif.Trips.Choices.C111_again",
    "Verif.Trips.Choices.C111_equal",
    "Verif.Trips.Choices.C111_set_null"
   ],
   "note": "On top of C14, C15 and C27. The swap needs no conditions on the operands. The other laws are stated for operands whose values the dtype of the result holds and which do not include the null value in use (otherwise valid cells become null, C27_scalar_lost). Where d is null both sides of the and/or laws are given too: they differ where c decides alone. All rasters have one shape."
  },
  {
   "property": "C112",
   "status": "proved",
   "theorems": [
    "Verif.Trips.Variety.C112_unique",
    "Verif.Trips.Variety.C112_asm",
    "Verif.Trips.Variety.C112_entropy",
    "Verif.Trips.Variety.C112_mode",
    "Verif.Trips.Variety.C112_aggregate"
   ],
   "note": "On top of C38 and C56. Arithmetic is exact, the logarithm that of the real numbers; in the aggregated rasters the moment is rounded to the dtype at the end, and the dtypes of the counts are assumed to hold the counts. C29, C55 and C76 say that focal, local_stats and zonal_stats apply the same functions."
  },
  {
   "property": "C113",
   "status": "proved",
   "theorems": [
    "Verif.Trips.C113_monotone",
    "Verif.Trips.C113_scaled",
    "Verif.Trips.C113_union",
    "Verif.Trips.C113_symmetric",
    "Verif.Trips.C113_triangle",
    "Verif.Trips.C113_neighbours"
   ],
   "note": "Arguments as in C71 (nulls that the code can tell, exact numbers); the square root is nonnegative, and monotone or homogeneous on the lengths of steps where that is needed."
  },
  {
   "property": "C114",
   "status": "proved",
   "theorems": [
    "Verif.Trips.C114_one_source",
    "Verif.Trips.C114_limit",
    "Verif.Trips.C114_values"
   ],
   "note": "Requirements as in C72: values that the conversion to floats keeps, null values and margins that are not taken for sources, reports that are not the null value of the result; exact numbers."
  },
  {
   "property": "C115",
   "status": "partial",
   "theorems": [
    "Verif.Trips.Burns.C115_nulls",
    "Verif.Trips.Burns.C115_masks",
    "Verif.Trips.Burns.C115_bounds",
    "Verif.Trips.Burns.C115_order",
    "Verif.Trips.Burns.C115_tables"
   ],
   "note": "Needs what C33 needs: no NaN as null value (and as value for min and max), no value equal to the null value, chunks with at least two rows and columns, spatial partitions that cover their features; C33 has the counterexamples."
  },
  {
   "property": "C116",
   "status": "partial",
   "theorems": [
    "Verif.Trips.Cutouts.C116_sums",
    "Verif.Trips.Cutouts.C116_extremes",
    "Verif.Trips.Cutouts.C116_trim",
    "Verif.Trips.Cutouts.C116_zones",
    "Verif.Trips.Cutouts.C116_zone_numbers"
   ],
   "note": "Needs what C34 needs (chunks with at least two rows and columns, spatial partitions that cover their features; counterexamples there); for clip the window must hold the touched cells, for zonal_stats the statistics must ignore NaN and the order; sums are exact."
  },
  {
   "property": "C117",
   "status": "proved",
   "theorems": [
    "Verif.Trips.Ranges.C117_cells",
    "Verif.Trips.Ranges.C117_order",
    "Verif.Trips.Ranges.C117_split",
    "Verif.Trips.Ranges.C117_hidden",
    "Verif.Trips.Ranges.C117_after",
    "Verif.Trips.Ranges.C117_again",
    "Verif.Trips.Ranges.C117_where",
    "Verif.Trips.Ranges.C117_set_null",
    "Verif.Trips.Ranges.C117_split_open"
   ],
   "note": "Conversions of the numbers involved lose nothing, and neither cells nor new values are the null value of the result (as in C25, C27); C117_split_open shows why splitting needs an end that belongs to the ranges."
  },
  {
   "property": "C118",
   "status": "proved",
   "theorems": [
    "Verif.Trips.Dicts.C118_cells",
    "Verif.Trips.Dicts.C118_order",
    "Verif.Trips.Dicts.C118_unmapped",
    "Verif.Trips.Dicts.C118_after",
    "Verif.Trips.Dicts.C118_backwards",
    "Verif.Trips.Dicts.C118_changed_dict"
   ],
   "note": "Conversions of the numbers involved lose nothing, and neither the cells that stay nor the new values are the null value of the result (as in C26). Without a null value the second call with the changed dict does differ (C26_second_call_differs)."
  },
  {
   "property": "C119",
   "status": "proved",
   "theorems": [
    "Verif.Trips.Islands.C119_again",
    "Verif.Trips.Islands.C119_recoded",
    "Verif.Trips.Islands.C119_ordered",
    "Verif.Trips.Islands.C119_neighbors",
    "Verif.Trips.Islands.C119_listed",
    "Verif.Trips.Islands.C119_fewer",
    "Verif.Trips.Islands.C119_reclassify"
   ],
   "note": "`ndm.label` is a parameter that numbers the components of an image from 1 (as in C28); unique_values without duplicates (C28 has the counterexample); overflow of the labels is not modelled; C119_reclassify needs what C118 needs."
  },
  {
   "property": "C120",
   "status": "proved",
   "theorems": [
    "Verif.Trips.Heights.C120_lifted",
    "Verif.Trips.Heights.C120_degrees",
    "Verif.Trips.Heights.C120_zoomed",
    "Verif.Trips.Heights.C120_curvature_sum",
    "Verif.Trips.Heights.C120_slope_sum"
   ],
   "note": "Real numbers instead of floats, NaN propagates; rasters with the same grid may have different chunks. Sums are rasters whose null cells are those of either one (what C14 says of +)."
  },
  {
   "property": "C121",
   "status": "proved",
   "theorems": [
    "Verif.Trips.Bandwise.C121_order",
    "Verif.Trips.Bandwise.C121_own_statistics",
    "Verif.Trips.Bandwise.C121_repeated",
    "Verif.Trips.Bandwise.C121_groups",
    "Verif.Trips.Bandwise.C121_minband"
   ],
   "note": "On top of C38, C46, C47 and C55. The statistics of numpy are parameters: that they ignore the order (or repetitions) is a hypothesis, for raster_tools' own statistics it is proved. Groups are stated where the conversions keep the numbers and the partial results (else C55_half_precision), for rasters with a null value (else C55_unmasked_bands). 'minband' where no valid value is NaN or infinite (else C55_minband_null)."
  },
  {
   "property": "C122",
   "status": "proved",
   "theorems": [
    "Verif.Trips.Conversions.C122_detour",
    "Verif.Trips.Conversions.C122_there_and_back",
    "Verif.Trips.Conversions.C122_again",
    "Verif.Trips.Conversions.C122_order",
    "Verif.Trips.Conversions.C122_null_back",
    "Verif.Trips.Conversions.C122_cleared",
    "Verif.Trips.Conversions.C122_lost"
   ],
   "note": "On top of C16 and C17, with their laws of conversions (safe conversions lose nothing but for 64 bit integers that become floats; C16_uint64_loses_digits). C122_lost shows that a valid cell with the number of the null value is lost on the way."
  },
  {
   "property": "C123",
   "status": "proved",
   "theorems": [
    "Verif.Trips.Forecasts.C123_points",
    "Verif.Trips.Forecasts.C123_nan_cells",
    "Verif.Trips.Forecasts.C123_infinite_cells"
   ],
   "note": "On top of C57, C66 and C78. The conversions keep the valid values and the predictions (toF64, promotion to float); the table holds the extracted columns, in any partitions; the computed raster of predictions is on the grid of the raster. C123_nan_cells and C123_infinite_cells show that finite valid cells are needed."
  },
  {
   "property": "C124",
   "status": "proved",
   "theorems": [
    "Verif.Trips.Readings.C124_points",
    "Verif.Trips.Readings.C124_axes",
    "Verif.Trips.Readings.C124_bands",
    "Verif.Trips.Readings.C124_stacks",
    "Verif.Trips.Readings.C124_pieces",
    "Verif.Trips.Readings.C124_somewhere"
   ],
   "note": "On top of C66, C46, C47 and C108. Stacks where the conversion to the common dtype keeps the doubles of the valid values, for rasters on the same grid. Pieces of rasters without rotation whose coordinates are the centres of the cells, with the cell size of the raster; the affine of a piece is that of odc (not modelled)."
  },
  {
   "property": "C125",
   "status": "proved",
   "theorems": [
    "Verif.Trips.Samples.C125_calculated"
   ],
   "note": "On top of C110 and C66. Rasters with the same bands and coordinates, which give the same affine; doubles keep the valid values of the rasters; the operations of NumPy are parameters."
  },
  {
   "property": "C126",
   "status": "partial",
   "theorems": [
    "Verif.Trips.Probes.C126_set_null",
    "Verif.Trips.Probes.C126_astype",
    "Verif.Trips.Probes.C126_null_value",
    "Verif.Trips.Probes.C126_where_partial",
    "Verif.Trips.Probes.C126_reclassify_partial"
   ],
   "note": "On top of C66, C15, C16, C17, C26 and C27. All rasters lie on one grid; doubles keep the valid values. For where and reclassify the conversions must keep the values, and no value may be the null value of the result: such values read NaN, because the cells become null (C27_scalar_lost, C26_reclassify). set_null_value unless 64 bit integers become floats (C16_uint64_loses_digits)."
  },
  {
   "property": "C127",
   "status": "proved",
   "theorems": [
    "Verif.Trips.Frames.C127_pad",
    "Verif.Trips.Frames.C127_clip_box"
   ],
   "note": "On top of C66, C85 and C104, with their conditions: rasters on a regular grid without rotation, boxes that meet two rows and columns, fill values of one type that the conversions keep. The coordinates are the centres of the cells of the affine, before and after; the affine itself is that of odc (not modelled)."
  }
 ]
}