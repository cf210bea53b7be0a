{"id": "C01", "title": "Indexed heap behaves like a map from values to keys", "statement": "After init_heap_data(capacity, max_value), any sequence of push, push_if_lower and pop calls behaves exactly like operations on a finite map from value to key: push stores or overwrites the key, push_if_lower stores the key only when the value is absent or the stored key is strictly larger, and pop on a non-empty heap returns an entry of the map whose key is minimal and removes exactly that entry. No entry is lost, duplicated or altered by growing or shrinking the internal arrays.", "quantifier": "for every capacity >= 1, every max_value >= 1 and every finite history of push/push_if_lower/pop calls with arbitrary non-NaN keys and arbitrary integer values", "why_tests_cant": "The state space is all histories that interleave growth, shrink, key update and removal at every heap size; a test visits a handful of them.", "anchors": ["raster_tools/distance/_heap.py:init_heap_data", "raster_tools/distance/_heap.py:push", "raster_tools/distance/_heap.py:push_if_lower", "raster_tools/distance/_heap.py:pop", "raster_tools/distance/_heap.py:_remove", "raster_tools/distance/_heap.py:_resize_levels", "raster_tools/distance/_heap.py:_sift"]}
{"id": "C02", "title": "Heap never touches memory outside its arrays", "statement": "No history of heap calls makes init_heap_data, push, push_if_lower or pop read or write an index outside the keys, values or crossrefs arrays (the compiled code has no bounds checks, so such an access would be silent memory corruption).", "quantifier": "for every capacity >= 1, every max_value >= 1, every history of calls, including pop on an empty heap and values outside [0, max_value]", "why_tests_cant": "Out-of-bounds accesses in nopython code do not raise; a test can pass while memory is corrupted, and the index arithmetic depends on the full history of resizes.", "anchors": ["raster_tools/distance/_heap.py:_sift", "raster_tools/distance/_heap.py:_sift_all", "raster_tools/distance/_heap.py:_resize_levels", "raster_tools/distance/_heap.py:_remove", "raster_tools/distance/_heap.py:_simple_push", "raster_tools/distance/_heap.py:pop"]}
{"id": "C03", "title": "Heap result flags are truthful", "statement": "push returns -1 exactly when the value is outside [0, max_value] (and then nothing changes), 0 exactly when the value was already stored, 1 exactly when it was new. push_if_lower returns -1 exactly for an out of range value, 1 exactly when the stored key for the value was created or strictly lowered by this call, and 0 exactly when an existing key was kept.", "quantifier": "for every reachable heap state, key and value", "why_tests_cant": "The flag depends on the whole history through the cross reference table, so each test checks one history.", "anchors": ["raster_tools/distance/_heap.py:push", "raster_tools/distance/_heap.py:push_if_lower"]}
{"id": "C04", "title": "Draining the heap yields every stored value once, in key order", "statement": "Popping a heap that holds n entries n times returns each stored value exactly once with its stored key, the keys come out in non-decreasing order, and the heap is empty afterwards. The sequence of popped keys does not depend on the capacity the heap was created with.", "quantifier": "for every reachable heap state and every pair of initial capacities", "why_tests_cant": "Correct ordering at sampled sizes says nothing about the sizes at which shrink and swap-with-last interact.", "anchors": ["raster_tools/distance/_heap.py:pop", "raster_tools/distance/_heap.py:_remove", "raster_tools/distance/_heap.py:_resize_levels"]}
{"id": "C05", "title": "Cost distance is the true least accumulated cost", "statement": "The cost value reported for a cell equals the minimum, over all paths on the grid from any source cell to that cell (4 or 8 connected as requested, moving only through traversable cells), of the accumulated cost, where one step between neighbours costs the travel distance of the step times the mean of the two cell costs, the travel distance accounting for the scaling, the diagonal and the elevation difference when given. Source cells report 0.", "quantifier": "for every grid shape, cost surface with non-negative costs and barriers, optional elevation surface, set of sources, scaling, and connectivity in {4, 8}", "why_tests_cant": "Optimality quantifies over all (infinitely many) paths on all grids; tests compare a few fixed grids with stored answers.", "anchors": ["raster_tools/distance/cost_distance.py:_cost_distance_analysis_core", "raster_tools/distance/cost_distance.py:cost_distance_analysis_numpy", "raster_tools/distance/cost_distance.py:_MOVES"]}
{"id": "C06", "title": "Cost distance reaches exactly the reachable cells", "statement": "A cell has a finite cost distance if and only if some path of traversable cells (starting at a source) leads to it; barrier cells (negative, infinite or NaN cost, or null elevation) are never entered from another cell and never passed through, and unreached cells keep an infinite cost, traceback code -2 and no allocation.", "quantifier": "for every grid, barrier pattern, source set and connectivity", "why_tests_cant": "Reachability quantifies over all barrier layouts, including sources placed on barriers and one-cell-wide gaps.", "anchors": ["raster_tools/distance/cost_distance.py:_cost_distance_analysis_core"]}
{"id": "C07", "title": "Traceback leads to the allocated source along a path that costs what was reported", "statement": "From every reached cell, repeatedly following the traceback direction reaches a source cell after finitely many steps without leaving the grid or visiting a cell twice, the accumulated cost of the followed path equals the reported cost distance, and the source value at the end is the reported allocation.", "quantifier": "for every grid, source set, connectivity and every reached cell", "why_tests_cant": "Consistency of three output arrays that are overwritten many times during the search can only be sampled by tests.", "anchors": ["raster_tools/distance/cost_distance.py:_cost_distance_analysis_core", "raster_tools/distance/cost_distance.py:_MOVES"]}
{"id": "C08", "title": "The cost distance search always finishes inside its iteration budget", "statement": "The main loop's iteration cap never cuts the search short: when the loop stops, the priority queue is empty and every cell has been finalised at most once.", "quantifier": "for every grid and every source set", "why_tests_cant": "A cap that is too small only shows on adversarial cost surfaces with many key updates.", "anchors": ["raster_tools/distance/cost_distance.py:_cost_distance_analysis_core"]}
{"id": "C09", "title": "Proximity reports real targets", "statement": "Every distance reported by the proximity analysis is the distance from that cell to an actual target cell that lies within max_distance; the allocation output is that same target's value and the direction output is the direction to that same target; target cells report distance 0; a cell without a reported distance has no allocation and no direction.", "quantifier": "for every grid, target set, distance metric and max_distance", "why_tests_cant": "The four-pass sweep carries candidate coordinates between cells; whether a stale or wrong candidate can be reported depends on arbitrary target layouts.", "anchors": ["raster_tools/distance/proximity.py:_process_proximity_line", "raster_tools/distance/proximity.py:_compute_proximity"]}
{"id": "C10", "title": "Mosaic 'first' and 'last' pick the right raster", "statement": "With mosaic_method='first' each output cell takes its value from the earliest input raster that counts there, with 'last' from the latest; a cell for which no input counts is null. An input counts at a cell if the cell is not null and its value differs from the output's null value. A raster without the band does not take part. This does not depend on how many rasters are given.", "quantifier": "for every number of rasters >= 1 on a common grid, every pattern of missing cells, every cell", "why_tests_cant": "The implementation switches to a divide and conquer scheme at 8 layers and reverses orders twice; tests use few layers.", "anchors": ["raster_tools/_mosaic.py:_paint", "raster_tools/_mosaic.py:_paint_recursive", "raster_tools/_mosaic.py:_mosaic_single_band", "raster_tools/_mosaic.py:_nb_push"]}
{"id": "C11", "title": "Mosaic 'min' and 'max' are the extreme valid values", "statement": "With mosaic_method='min' ('max') each output cell is the smallest (largest) counting value among the inputs at that cell (an input counts if its cell is not null and differs from the output's null value), and null exactly when no input counts there, for any number of inputs, including values equal to the dtype's limits; NaN that is not the null value is passed over unless there is nothing else.", "quantifier": "for every number of rasters, every dtype (integer or float), every pattern of missing cells", "why_tests_cant": "Sentinels for missing integers coincide with legal extreme values; only particular value patterns could expose a mix-up.", "anchors": ["raster_tools/_mosaic.py:_paint", "raster_tools/_mosaic.py:_paint_recursive"]}
{"id": "C12", "title": "Mosaic 'sum' adds all valid values", "statement": "With mosaic_method='sum' each output cell is the sum of all valid values at that cell (null only if there is none), independent of the number of inputs.", "quantifier": "for every number of rasters and every value pattern", "why_tests_cant": "The recursion re-tests partial sums against the null value, which matters only for special value combinations with at least 7 inputs.", "anchors": ["raster_tools/_mosaic.py:_paint", "raster_tools/_mosaic.py:_paint_recursive"]}
{"id": "C13", "title": "Mosaic result does not depend on chunking or evaluation tree", "statement": "The painted result is the same whether the layers are scanned sequentially in one chunk, or split in arbitrary chunks and combined with the parallel (Blelloch) prefix scan, or halved recursively.", "quantifier": "for every split of the layer axis into chunks and every method in {first, last, min, max}", "why_tests_cant": "The number of chunk splits and scan trees is unbounded and chosen by dask at run time.", "anchors": ["raster_tools/_mosaic.py:_dask_push", "raster_tools/_mosaic.py:_push_binop_last", "raster_tools/_mosaic.py:_push_take_last", "raster_tools/_mosaic.py:_nb_push", "raster_tools/_mosaic.py:_paint_recursive"]}
{"id": "C14", "title": "Null propagates through arithmetic and only valid cells are combined", "statement": "For an element-wise operation (+, -, <, numpy ufuncs, ...) on rasters of one grid and numbers, a cell of every result raster is null if and only if at least one raster operand is null at that cell; every valid result cell equals the operation applied to the operands' values; null result cells hold the result's null value, which is representable in its dtype; the result has a null value exactly when some operand has one. The operation is refused exactly for float operands of bitwise and shift operations and for operations with several outputs on rasters without null value.", "quantifier": "for every element-wise operation with any number of inputs and outputs, all rasters of the same shape, scalars and arrays, and all mask patterns", "why_tests_cant": "Mask algebra must hold for all combinations of masked and unmasked operands.", "anchors": ["raster_tools/raster.py:_apply_ufunc", "raster_tools/raster.py:_normalize_ufunc_other", "raster_tools/utils.py:merge_masks"]}
{"id": "C15", "title": "set_null only adds nulls", "statement": "raster.set_null(mask) makes a cell null exactly when it was null before or the mask is true (and not null itself) there, leaves the value of every other cell unchanged, is idempotent, and applying two masks one after the other equals applying their union, in any order. Masks with another grid, band count or a non-boolean wide dtype are rejected.", "quantifier": "for every raster and every pair of masks (one band or as many as the raster)", "why_tests_cant": "An algebraic law over all masks; tests pick a few masks.", "anchors": ["raster_tools/raster.py:Raster.set_null", "raster_tools/raster.py:Raster.burn_mask"]}
{"id": "C16", "title": "Changing the null value keeps valid data and null cells", "statement": "raster.set_null_value(v) keeps every valid cell's value, keeps every null cell null, and stores v in the null cells; the only other cells that can become null are those whose value equals v. Passing None removes the mask entirely.", "quantifier": "for every raster, dtype and new null value", "why_tests_cant": "The interaction of old null value, new null value, NaN and data that happens to equal v spans all value combinations.", "anchors": ["raster_tools/raster.py:Raster.set_null_value", "raster_tools/raster.py:Raster.replace_null"]}
{"id": "C17", "title": "astype preserves the null mask and converted values", "statement": "raster.astype(dtype) has exactly the same null cells as the input, every valid cell holds the converted value, and a requested new null value becomes the null value of the result and is what the null cells hold.", "quantifier": "for every raster, target dtype and new null value", "why_tests_cant": "The code takes a shortcut when the old and new null values are 'close'; only particular values expose it.", "anchors": ["raster_tools/raster.py:Raster.astype", "raster_tools/masking.py:reconcile_nullvalue_with_dtype"]}
{"id": "C18", "title": "Null values are reconciled with the data type", "statement": "For an integer or boolean dtype, reconcile_nullvalue_with_dtype(nv, dtype) returns a value that is exactly representable in dtype (None only for None), whatever the input; the default null value of every supported dtype is representable in it.", "quantifier": "for all null values (integers, floats, NaN, infinities, booleans), all dtypes, NumPy 1 and 2 casting rules", "why_tests_cant": "Input space is all dtype pairs times all values; the casting rules differ between NumPy versions and only one is installed at a time.", "anchors": ["raster_tools/masking.py:reconcile_nullvalue_with_dtype", "raster_tools/masking.py:get_default_null_value", "raster_tools/masking.py:DTYPE_TO_DEFAULT_NULL"]}
{"id": "C19", "title": "Common dtype can hold every integer literal", "statement": "get_common_dtype(items) returns a dtype in which every integer literal of items fits (or a floating point dtype, because of the other items) and to which every other item's dtype can be cast safely. For integer literals alone it is the first fitting one in the order u8, i8, u16, i16, u32, i32, u64, i64; the result does not depend on where the literals stand.", "quantifier": "for every non-empty list of dtypes, integers and other scalars whose integers fit together in some 64-bit type", "why_tests_cant": "Unbounded integers and list lengths; boundary values at each power of two.", "anchors": ["raster_tools/dtypes.py:get_common_dtype", "raster_tools/dtypes.py:safe_min_scalar_type"]}
{"id": "C20", "title": "xy and index are inverse on the grid", "statement": "For every cell, raster.index(*raster.xy(row, col)) returns that row and col for the centre and the upper-left corner, and the right, lower or lower-right neighbour for the other corners; conversely every point is assigned to the unique cell whose half-open parallelogram (rectangle on a north-up grid, top and left edges included) contains it.", "quantifier": "for every invertible affine transform (also rotated or sheared) and every row, column and point", "why_tests_cant": "Statement over all transforms and the boundary points between cells.", "anchors": ["raster_tools/raster.py:rowcol_to_xy", "raster_tools/raster.py:xy_to_rowcol", "raster_tools/raster.py:Raster.xy", "raster_tools/raster.py:Raster.index"]}
{"id": "C21", "title": "Chunks partition the raster", "statement": "The chunk locations derived from a chunk tuple are consecutive, and every cell of the raster lies in exactly one chunk; the chunk rasters of get_chunk_rasters show each cell once, with its value, null state and coordinates; the affine of a block info maps chunk-local cells to the same coordinates as the parent maps the global ones; the boxes of get_chunk_bounding_boxes are the rectangles covered by the chunks.", "quantifier": "for every tuple of chunk sizes in every dimension and every cell", "why_tests_cant": "Chunk layouts are unbounded; off-by-one errors show only in particular layouts.", "anchors": ["raster_tools/dask_utils.py:chunks_to_array_locations", "raster_tools/raster.py:Raster.get_chunk_rasters", "raster_tools/raster.py:Raster.get_chunk_bounding_boxes", "raster_tools/blocks.py:geo_block_infos"]}
{"id": "C22", "title": "to_points lists every non-null cell once", "statement": "raster.to_points() yields exactly one row per non-null cell, with that cell's value, 1-based band and cell centre, and the row index values are unique across the whole raster regardless of chunking.", "quantifier": "for every raster shape, mask and chunking", "why_tests_cant": "Uniqueness of the index across chunks is a global statement over all chunkings.", "anchors": ["raster_tools/raster.py:_vectorize", "raster_tools/raster.py:Raster.to_points", "raster_tools/dask_utils.py:chunks_to_array_locations"]}
{"id": "C23", "title": "Stacking then splitting bands gives the inputs back", "statement": "split_bands(stack_bands(rasters)) returns the bands of the inputs in order with the same null cells and (after the common dtype conversion) the same valid values, and the number of bands is the sum of the inputs' bands.", "quantifier": "for every non-empty list of rasters with arbitrary band counts", "why_tests_cant": "A round trip law over lists of arbitrary length and mixed masks.", "anchors": ["raster_tools/_stack.py:stack_bands", "raster_tools/_stack.py:split_bands"]}
{"id": "C24", "title": "Padding never disturbs the original cells", "statement": "pad(raster, target, fill_values) keeps every original cell's value and null state at its position; each new cell holds the fill value of its band converted to the raster's dtype, and is null exactly when no fill was given or the fill equals the raster's null value; only lists of the wrong length and arguments of other types are rejected.", "quantifier": "for every raster, number of rows and columns added on each side and fill_values (None, scalar, per-band list)", "why_tests_cant": "Positions, margins and fills are unbounded.", "anchors": ["raster_tools/_padding.py:pad", "raster_tools/_padding.py:_validate_fill_values"]}
{"id": "C25", "title": "remap_range applies the first matching range and nothing else", "statement": "remap_range(raster, mappings, inclusivity) sends a valid cell to the output of the first range (in the given order) that contains its value under the chosen inclusivity and leaves a valid cell outside all ranges unchanged; a cell of the result is null exactly if it was null, is mapped to None, or its new value equals the result's null value; malformed mappings (min >= max, NaN, wrong length, empty) are rejected.", "quantifier": "for every list of mappings (overlapping or not), inclusivity and cell value", "why_tests_cant": "Overlapping ranges and boundary equality are unbounded combinations.", "anchors": ["raster_tools/general.py:_remap_values", "raster_tools/general.py:_normalize_mappings", "raster_tools/general.py:remap_range"]}
{"id": "C26", "title": "reclassify is a pure table lookup", "statement": "reclassify(raster, mapping, unmapped_to_null) maps each valid cell with an entry to the entry's value (null for None), keeps or nulls the other valid cells as requested, keeps null cells null, and does not change the mapping passed in, so the same mapping can be reused on other rasters.", "quantifier": "for every mapping, raster and flag, and every sequence of calls reusing one mapping", "why_tests_cant": "Purity is a statement about all later uses of the caller's dictionary.", "anchors": ["raster_tools/general.py:_reclassify_chunk", "raster_tools/general.py:reclassify", "raster_tools/general.py:_get_remapping"]}
{"id": "C27", "title": "where selects cell by cell and propagates null as documented", "statement": "where(condition, t, f): a cell is null if the condition is null there or the selected operand is null there (None counts as null); otherwise it holds the selected operand's value.", "quantifier": "for every condition raster (bool or int), operands (raster, scalar or None) and cell", "why_tests_cant": "Null state is recovered from values; only special value coincidences break it.", "anchors": ["raster_tools/general.py:where", "raster_tools/general.py:_get_where_nv"]}
{"id": "C28", "title": "regions labels are exactly the connected components of equal value", "statement": "In the result of regions, two non-zero labelled cells have the same label if and only if they have the same value and are connected through cells of that value; labels run from 1 to the number of regions; null cells are null; zero cells get label 0.", "quantifier": "for every raster, neighbourhood and list of distinct values", "why_tests_cant": "Labels from separate passes are offset and added; label collisions depend on the number of regions per value.", "anchors": ["raster_tools/general.py:_create_labels", "raster_tools/general.py:regions"]}
{"id": "C29", "title": "Focal statistics do not depend on chunking", "statement": "For every cell the focal result equals the statistic of the in-raster, non-null values at the window offsets around it, no matter how the raster is chunked.", "quantifier": "for every raster, window (odd or even sized), chunking with valid overlap, and statistic", "why_tests_cant": "Window/overlap index arithmetic must be right for all window sizes and all chunk layouts.", "anchors": ["raster_tools/focal.py:_focal_chunk", "raster_tools/focal.py:_focal", "raster_tools/focal.py:_get_offsets"]}
{"id": "C30", "title": "Focal windows have the documented shape", "statement": "get_focal_window(r) is the set of offsets within distance r-1 of the centre, is symmetric, get_focal_window((r1, r2)) is exactly the circle of r2 minus the circle of r1 (never containing the centre), a rectangle is full; invalid radii are rejected.", "quantifier": "for every radius, pair of radii and rectangle size", "why_tests_cant": "An exact geometric characterisation for all radii.", "anchors": ["raster_tools/focal.py:get_focal_window"]}
{"id": "C31", "title": "Correlation ignores nulls and convolution is correlation with the flipped kernel", "statement": "Each valid cell of correlate(raster, kernel) is the sum over kernel offsets of kernel weight times value over non-null cells (outside cells per mode), null cells stay null, the result is linear in the kernel and the data and chunk independent, and convolve(raster, k) equals correlate(raster, k rotated by 180 degrees); rotating twice gives back correlate.", "quantifier": "for every kernel, raster, mode 'constant' and chunking", "why_tests_cant": "Linearity and flip laws over all kernels.", "anchors": ["raster_tools/focal.py:_correlate2d_chunk", "raster_tools/focal.py:_correlate", "raster_tools/focal.py:convolve"]}
{"id": "C32", "title": "Zonal statistics do not depend on partitioning", "statement": "The counts based zonal statistics (mode, nunique, asm, entropy) computed by combining per partition value counts equal the statistic of the multiset of all valid values of the zone; mode is the most frequent value and the smallest one on ties.", "quantifier": "for every assignment of cells to partitions and every value multiset", "why_tests_cant": "dask chooses the partitions; equality must hold for all of them.", "anchors": ["raster_tools/zonal.py:_combine_values_and_counts", "raster_tools/zonal.py:_mode_fin", "raster_tools/zonal.py:_asm_entropy_fin", "raster_tools/zonal.py:_nunique_agg"]}
{"id": "C33", "title": "Rasterize resolves overlaps the same for every partitioning", "statement": "For 'first', 'last', 'min' and 'max' a cell touched by several features gets the value of the first / last / smallest / largest feature, untouched cells are null, and this does not depend on how the features are partitioned or whether spatial partitions are used.", "quantifier": "for every feature table, partitioning, touch pattern and method", "why_tests_cant": "Partition boundaries interact with sort order and the tree reduction; unbounded combinations.", "anchors": ["raster_tools/rasterize.py:_rasterize_onto_chunk", "raster_tools/rasterize.py:_reduce_stacked_feature_rasters_custom", "raster_tools/rasterize.py:_rasterize_spatial_matches", "raster_tools/rasterize.py:_resolve_first", "raster_tools/rasterize.py:_resolve_min"]}
{"id": "C34", "title": "clip and erase split the data between them", "statement": "For the same feature and bounds, a cell that is valid in the input is valid in exactly one of clip and erase and keeps its value there, cells null in the input are null in both, and mask(invert=...) does the same without trimming.", "quantifier": "for every raster, feature mask and cell", "why_tests_cant": "A complementarity law over all rasters and masks.", "anchors": ["raster_tools/clipping.py:_clip", "raster_tools/clipping.py:clip", "raster_tools/clipping.py:erase", "raster_tools/clipping.py:mask"]}
{"id": "C35", "title": "GeoBlockInfo windows stay aligned when padded or shifted", "statement": "pad_y/pad_x/pad/shift on a block's geo information change the row and column slices, the geobox shape and the affine consistently: the coordinates of a cell addressed by its global row/col are unchanged, padding by n then by -n gives the original back, shifts compose additively, and a resize that would give a negative size is rejected.", "quantifier": "for every block, and every integer pad/shift amounts", "why_tests_cant": "Algebraic laws over all integers.", "anchors": ["raster_tools/blocks.py:GeoBlockInfo._resize", "raster_tools/blocks.py:GeoBlockInfo.pad", "raster_tools/blocks.py:GeoBlockInfo.shift"]}
{"id": "C36", "title": "Overlap depth and boundary arguments are normalised or rejected", "statement": "The depth argument of map_overlap/geo_map_overlap is accepted exactly when it describes non-negative depths on the y and x axes with no overlap on the band axis, in which case the normalised depth is what was described; asymmetric depth requires boundary none; boundary aliases for null use the raster's null value (or the default) and mark the added cells as null.", "quantifier": "for every depth value (int, tuple, dict) and boundary", "why_tests_cant": "Decision logic over an unbounded input space.", "anchors": ["raster_tools/blocks.py:_normalize_depth", "raster_tools/blocks.py:_normalize_depth_axis", "raster_tools/blocks.py:_resolve_boundary", "raster_tools/blocks.py:_check_asymmetric_depth_compatible_with_boundary"]}
{"id": "C37", "title": "Surface derivatives are exact on planes and within their ranges", "statement": "On a planar surface z = a*x + b*y + c, slope has rise/run squared a^2+b^2 at every interior cell, curvature is 0; adding a constant to the elevation changes nothing; aspect is -1 exactly on cells with zero gradient and otherwise in [0, 360); hillshade is in [0, 255]; the outermost rows and columns are null.", "quantifier": "for every plane, resolution (either sign), raster size and cell", "why_tests_cant": "Exactness and range claims over all real inputs.", "anchors": ["raster_tools/surface.py:_slope", "raster_tools/surface.py:_curv", "raster_tools/surface.py:_aspect", "raster_tools/surface.py:_hillshade", "raster_tools/surface.py:_finalize"]}
{"id": "C38", "title": "NaN-aware statistics ignore NaNs and order", "statement": "nan_unique_count, nanmode and nanasm give the same result for every permutation of the input and for any NaNs added; mode is the smallest most frequent value; nanargmin/nanargmax return the position of the first extreme non-NaN value, -1 for empty and -2 for all-NaN input.", "quantifier": "for every finite sequence of values including NaN and infinities", "why_tests_cant": "Permutation invariance over all sequences.", "anchors": ["raster_tools/stat_common.py:nan_unique_count", "raster_tools/stat_common.py:nanmode", "raster_tools/stat_common.py:nanasm", "raster_tools/stat_common.py:nanargmin", "raster_tools/stat_common.py:nanargmax"]}
{"id": "C39", "title": "Feature ids and file partitions are unique and complete", "statement": "add_objectid_column gives pairwise different ids as long as no partition has more than 10^9 features, and picks a column name not in use; reading a layer in batches covers every feature exactly once in order; the size derived from divisions never exceeds the true size.", "quantifier": "for every partition layout and feature count", "why_tests_cant": "Uniqueness over all layouts.", "anchors": ["raster_tools/vector.py:_add_objid", "raster_tools/vector.py:add_objectid_column", "raster_tools/vector.py:_read_file_delayed", "raster_tools/vector.py:_get_len_from_divisions"]}
{"id": "C40", "title": "Rows reshaped to nested lists keep their order", "statement": "list_reshape_2d/3d split a flat list into nested lists whose concatenation is the input, with exactly the requested shape, so chunk grids rebuilt from flat chunk lists put each chunk at its place.", "quantifier": "for every list and shape whose product is the list's length", "why_tests_cant": "Must hold for all shapes.", "anchors": ["raster_tools/utils.py:list_reshape_2d", "raster_tools/utils.py:list_reshape_3d"]}
{"id": "C41", "title": "Proximity reports the nearest target", "statement": "The distance reported by the proximity analysis for a cell is the distance to a nearest target cell, and a cell has no reported distance exactly when no target lies within max_distance.", "quantifier": "for every raster on a regular grid, every target set, every metric and every max_distance > 0", "why_tests_cant": "The two sweeps only pass candidates between neighbouring cells, so a nearest target can be lost; whether it is depends on the arrangement of all targets. A stored example shows one arrangement.", "anchors": ["raster_tools/distance/proximity.py:_compute_proximity", "raster_tools/distance/proximity.py:_process_proximity_line", "raster_tools/distance/proximity.py:pa_proximity"]}
{"id": "C42", "title": "Proximity does not depend on chunking", "statement": "Computing the proximity chunk by chunk with the overlap derived from max_distance and the resolution gives each cell the same distance as computing it on the whole raster at once.", "quantifier": "for every chunk position and size, max_distance, metric and data type", "why_tests_cant": "The overlap has to be sufficient for every position of every target relative to every chunk border, and the fill around the raster must never act as data.", "anchors": ["raster_tools/distance/proximity.py:_proximity_analysis", "raster_tools/distance/proximity.py:_proximity_analysis_chunk", "raster_tools/distance/proximity.py:_get_coords_for_chunk"]}
{"id": "C43", "title": "A null value that fits the dtype is kept", "statement": "reconcile_nullvalue_with_dtype(n, dtype) returns n unchanged (and without a warning) if n is an integer in the range of the integer dtype.", "quantifier": "for all integers and all integer dtypes, NumPy 1 and 2 casting rules", "why_tests_cant": "Tests run with one NumPy version and a few values; the rule depends on the version and on the exact range boundaries.", "anchors": ["raster_tools/masking.py:reconcile_nullvalue_with_dtype"]}
{"id": "C44", "title": "Null cells hold the null value, whatever the history", "statement": "In a raster that was built with the constructors and transformed by any sequence of element-wise operations, set_null, set_null_value, burn_mask, astype and to_null_mask, every null cell holds the raster's null value, and a raster without null value has no null cell.", "quantifier": "for every finite history of operations and all data", "why_tests_cant": "An invariant over all sequences of operations; tests apply one or two of them.", "anchors": ["raster_tools/raster.py:Raster", "raster_tools/raster.py:_apply_ufunc", "raster_tools/raster.py:Raster.astype", "raster_tools/raster.py:Raster.set_null"]}
{"id": "C45", "title": "Quadrants partition the raster", "statement": "to_quadrants returns four rasters such that every cell of the raster is in exactly one of them, north or south according to its row and west or east according to its column, with its value, null state and coordinates; their sizes add up to the raster's.", "quantifier": "for every raster, odd or even sized, and every cell", "why_tests_cant": "Off-by-one errors at the middle row and column for all parities.", "anchors": ["raster_tools/raster.py:Raster.to_quadrants"]}
{"id": "C46", "title": "Band selection", "statement": "get_bands(list) returns exactly the bands asked for, in that order and with repetitions, with values, null cells, dtype and null value unchanged; it raises for an empty list and for numbers outside 1..nbands; selecting from a selection equals selecting by the composed list.", "quantifier": "for every raster and list of integers", "why_tests_cant": "Index arithmetic with 1-based numbers over all lists.", "anchors": ["raster_tools/raster.py:Raster.get_bands"]}
{"id": "C47", "title": "band_concat keeps bands and marks nulls", "statement": "band_concat puts the bands of its inputs one after the other with the same null cells and valid values; every null cell of the result holds the result's null value; the result has a null value exactly if some input has one.", "quantifier": "for every list of two or more rasters on one grid", "why_tests_cant": "All combinations of masked and unmasked inputs and band counts.", "anchors": ["raster_tools/general.py:band_concat"]}
{"id": "C48", "title": "map_blocks and map_overlap equal one evaluation over the whole raster", "statement": "For a function that computes a cell from the input cells within the depth (for map_blocks: the cells at the same place; with out_bands: the cells of all bands there), the result holds at every cell the function of what is around it in the rasters continued by the boundary, whatever the chunks. The null value is the one given, else that of a single input with the dtype of the result, else the default. A cell is null exactly if it holds the null value or, with return_mask, if the function marks it, and then it holds the null value. Naming out_null_value is harmless.", "quantifier": "for every function, list of rasters, depth, boundary, null value and chunking", "why_tests_cant": "Chunk-independence quantifies over all chunkings and functions.", "anchors": ["raster_tools/blocks.py:map_overlap", "raster_tools/blocks.py:map_blocks", "raster_tools/blocks.py:_build_map_blocks_wrapper", "raster_tools/blocks.py:_resolve_out_null_value", "raster_tools/blocks.py:_check_out_bands"]}
{"id": "C49", "title": "Block infos of overlapping blocks describe the blocks", "statement": "The GeoBlockInfo that geo_map_overlap hands to the function is the window of exactly the cells of the block with its margin, so it gives each of these cells its coordinates.", "quantifier": "for every raster, chunking, depth, boundary and block", "why_tests_cant": "Index arithmetic over all chunk layouts and depths.", "anchors": ["raster_tools/blocks.py:_resolve_gbi_with_overlap_pad", "raster_tools/blocks.py:_ensure_chunks_for_overlap"]}
{"id": "C50", "title": "Aspect is the downhill direction", "statement": "On a plane that is not level, aspect is the compass direction (degrees clockwise from north) of the steepest descent.", "quantifier": "for every plane, resolution of either sign, chunking and interior cell", "why_tests_cant": "Directions of all planes on all grids; tests look at a few arrays with unit cells.", "anchors": ["raster_tools/surface.py:_aspect", "raster_tools/surface.py:aspect"]}
{"id": "C51", "title": "3D surface area is the area of the triangulated surface", "statement": "surface_area_3d gives each interior cell the total area of the eight triangles spanned by the cell centre and the points half the way to its neighbours; on a plane with gradient (a, b) this is the cell area times sqrt(1 + a^2 + b^2).", "quantifier": "for all elevations, resolutions and chunkings", "why_tests_cant": "Geometric identity over all real inputs.", "anchors": ["raster_tools/surface.py:_surface_area_3d", "raster_tools/surface.py:surface_area_3d"]}
{"id": "C52", "title": "Northing and easting are the components of the downhill direction", "statement": "northing and easting of elevations lie in [-1, 1] and are the north and east components of the unit vector of steepest descent; level cells, which have no direction, do not get the value of a direction; null cells stay null.", "quantifier": "for every plane, resolution, chunking and cell", "why_tests_cant": "Trigonometric identity over all inputs.", "anchors": ["raster_tools/surface.py:_northing_easting", "raster_tools/surface.py:northing", "raster_tools/surface.py:easting"]}
{"id": "C53", "title": "Surface results are null exactly where there is no value", "statement": "A cell of slope, aspect, curvature, surface_area_3d or hillshade is null if the input cell is null or lies in the outermost rows or columns, every other cell with nine valid elevations is not null, and no cell that is not null holds NaN.", "quantifier": "for every raster, null mask, chunking and cell", "why_tests_cant": "All positions of null cells relative to all others.", "anchors": ["raster_tools/surface.py:_finalize", "raster_tools/surface.py:hillshade"]}
{"id": "C54", "title": "vec[i] is feature i and iteration visits all features", "statement": "vec[i] returns the i-th feature (counting from the end for negative i) as a vector of one feature, raises IndexError outside -n <= i < n, NotImplementedError for slices and TypeError otherwise; iterating a vector yields every feature exactly once in order and stops.", "quantifier": "for every vector (any number of features, partition layout and index values) and every index", "why_tests_cant": "Holds or fails per index layout; tests only use vectors freshly read from files.", "anchors": ["raster_tools/vector.py:Vector.__getitem__", "raster_tools/vector.py:Vector.__init__", "raster_tools/vector.py:open_vectors"]}
{"id": "C55", "title": "Local statistics combine the valid bands of each cell", "statement": "local_stats(raster, stype) returns a raster with a single band and the rows and columns of the input. A cell of it is null exactly if it is null in every band of the input; otherwise it holds the statistic of the bands that are not null there, whatever the chunks. minband and maxband give the number (from 0) of the first band with the least or greatest value that is not null; unique gives the exact count of different values, which is never equal to the null value. Unknown statistics raise ValueError, names that are not strings TypeError.", "quantifier": "all rasters with any number of bands, all placements of null cells, all statistics", "why_tests_cant": "The result depends on the combination of dtype, null value, number of bands and which bands are null at a cell; the tests use a few masked rasters only and never more than one band without a null value.", "anchors": ["raster_tools/general.py: local_stats, _local, _get_unique_dtype", "raster_tools/raster.py: dataarray_to_xr_raster_ds, make_raster_ds"]}
{"id": "C56", "title": "Aggregation summarises exactly the cells of each window", "statement": "aggregate(raster, (ey, ex), stype) returns a raster with one cell for each full window of ey rows and ex columns: every cell of the input, apart from the last rows and columns that fill no window, belongs to exactly one cell of the result. That cell is null exactly if all cells of its window are null; otherwise it holds the statistic of the cells of the window that are not null. Its coordinates are those of the middle of its window. unique counts are exact and never equal to the null value. Windows that are not two integers of at least 1, or are (1, 1), raise TypeError or ValueError.", "quantifier": "all rasters, all windows, all placements of null cells, all statistics", "why_tests_cant": "The assignment of cells to windows is an index computation that has to be right for every size, remainder and window; tests check a few shapes.", "anchors": ["raster_tools/general.py: aggregate, _coarsen_chunk, _coarsen_block_map, _get_coarsen_dtype, _get_unique_dtype"]}
{"id": "C57", "title": "Model predictions do not depend on chunks", "statement": "model_predict_raster(raster, model, n) returns a raster with n bands in which a cell is null exactly if it is null in some band of the input; every other cell holds in band k the k-th output of the model for the values of all bands at that cell. For a model that predicts each sample by itself the result does not depend on the chunks. n < 1 raises ValueError, and a model with another number of outputs raises an error when the result is computed.", "quantifier": "all rasters, chunkings, row-wise models and numbers of outputs", "why_tests_cant": "The samples are reshaped chunk by chunk; that every prediction returns to its own cell and band must hold for every chunk shape and number of bands.", "anchors": ["raster_tools/general.py: model_predict_raster, _pred_raster, ModelPredictAdaptor"]}
{"id": "C58", "title": "Dilation and erosion take the extreme of the window", "statement": "dilate(raster, size) and erode(raster, size) keep dtype and shape, whatever the chunks. The window has size[0] rows and size[1] columns; for even sizes the window of the dilation reaches one cell further down and right, that of the erosion one further up and left. With a null value, a cell of the dilation is null exactly if no valid cell is in its window and otherwise holds the greatest valid value there; a cell of the erosion is null exactly if its window reaches beyond the raster or holds a null cell and otherwise holds the least value there. Without a null value no cell is null and the cells beyond the raster are ignored. Sizes that are not one integer or two integers of at least 1, or are (1, 1), raise an error.", "quantifier": "all rasters whose valid values lie within the limits of their dtype (no NaN or infinities), all sizes, chunkings and placements of null cells", "why_tests_cant": "Margins, edges, null cells and even sizes interact, separately for the data and the mask; tests compare a few sizes on one raster.", "anchors": ["raster_tools/general.py: dilate, erode, _erosion_or_dilation_filter, _get_footprint, _get_fill, _morph_op_chunk"]}
{"id": "C59", "title": "Dilation and erosion are adjoint; opening and closing bound the raster", "statement": "For rasters a, b of the same shape without a null value and any size: dilate(a, size) <= b in every cell exactly if a <= erode(b, size) in every cell. The opening dilate(erode(r)) is valid only where r is, and not greater there. The closing erode(dilate(r)) is valid wherever r is, and not smaller there.", "quantifier": "all rasters whose valid values lie within the limits of their dtype, all sizes, also even ones, all chunkings", "why_tests_cant": "A law between two operations for all pairs of rasters; it fails if the windows of the two are not exact reflections of each other, which odd sizes cannot show.", "anchors": ["raster_tools/general.py: dilate, erode"]}
{"id": "C60", "title": "A raster has the values of the xarray object it is made from", "statement": "Raster(obj) of an xarray DataArray with a dimension y or lat, a dimension x or lon and perhaps a third one, in any order, has every value of the object at the cell with the same coordinates, its bands in the same order and numbered from 1, its x coordinates going up and its y coordinates going down. Its null cells are exactly those whose value is the null value written on the object (for floating point data without one: NaN); all other cells keep their value. Raster(ds) of a Dataset with data and mask has its null cells where the mask is set. Making a raster from the object of a raster changes nothing. Objects with other numbers of dimensions or without coordinates raise ValueError.", "quantifier": "all orders, names, sizes and orientations of dimensions, all values, null values and masks", "why_tests_cant": "Renaming, transposing and flipping combine in many ways; a wrong flip of data against coordinates only shows with the one orientation that a test does not have.", "anchors": ["raster_tools/raster.py: normalize_xarray_data, find_spatial_dims, _try_to_get_null_value_xarray, _dataarray_input_to_raster_ds, _dataset_to_raster_ds", "raster_tools/utils.py: is_strictly_increasing, is_strictly_decreasing"]}
{"id": "C61", "title": "Rasters made like a template hold the value asked for", "statement": "full_like, zeros_like and ones_like give a raster with the rows and columns of the template and the number of bands asked for. Without copy_mask every cell holds the value and no cell is null. With copy_mask the null cells are those of the template (of its first band, if the numbers of bands differ), every other cell holds the value, and the dtype of the result is the one asked for or that of the value, whether or not the mask is copied. random_raster does the same with its samples. A missing template, two templates, a mask from a GeoBox, fewer than one band, a value that is no scalar, an unknown dtype or distribution raise an error, and nothing else does.", "quantifier": "all templates, values, dtypes, numbers of bands, masks and null values", "why_tests_cant": "The dtype and the null value depend on four things at once: the dtype argument, the dtype of the value, the null value of the template and copy_mask.", "anchors": ["raster_tools/creation.py: full_like, zeros_like, ones_like, random_raster, _build_result, _copy_mask, _get_bands, _get_dtype, _coalesce_template", "raster_tools/raster.py: data_to_raster_like"]}
{"id": "C62", "title": "Reductions of a raster see exactly the cells that are not null, however the raster is chunked", "statement": "raster.min() and raster.max() are the least and greatest value of all cells that are not null, leaving out NaN; NaN if all of these are NaN; an empty array if there are none. raster.sum() is the sum of these values without NaN, raster.mean() the sum divided by their number (NaN if there are none), raster.all() and raster.any() say whether all or some of them are not 0. None of these depend on the values of null cells, on the chunks, on chunks without a valid cell, or on the order in which dask combines the results of the chunks.", "quantifier": "all rasters, masks, values with NaN and infinities, all chunkings and all trees of combination", "why_tests_cant": "Chunks that are entirely null are rare in tests, and dask chooses the tree of combination by the number of chunks, so large rasters take other paths than small ones.", "anchors": ["raster_tools/raster.py: _ReductionsMixin", "raster_tools/dask_utils.py: dask_nanmin, dask_nanmax, _handle_empty"]}
{"id": "C63", "title": "Saving a raster and opening the file gives the raster back", "statement": "After r.save(path), Raster(path) has the shape of r, exactly the same null cells, and the same value in every other cell, for every dtype that the file format can hold. The dtype is the same, except that booleans come back as uint8 and int64 may come back as float64. The null value is the same (255 for booleans). save(path, null_value=v) writes r.set_null_value(v). NetCDF, HDF and GRIB files are refused, and so are null_value and no_data_value together.", "quantifier": "all rasters, masks, null values, dtypes and drivers", "why_tests_cant": "Only the values are written; the mask must be recovered from the nodata value, which passes through a C double and several libraries. Whether it survives depends on the dtype and on the size of the null value, of which a test tries a few.", "anchors": ["raster_tools/raster.py: Raster.save", "raster_tools/io.py: write_raster, open_raster_from_path_or_url, normalize_null_value, _supports_native_int64"]}
{"id": "C64", "title": "The files of save_chunks have different names that sort like the chunks", "statement": "save_chunks writes one file per chunk (or per band and chunk with per_band). All names are different, so no file is overwritten and each one holds its own chunk. Sorted as text the names are in the order of the chunks: by band, then row, then column. The extension is added once, with or without its leading dot.", "quantifier": "all prefixes, extensions and numbers of chunks and bands", "why_tests_cant": "Names only collide or sort wrongly when the numbers of digits change, i.e. for 10, 100, 1000 chunks in a row.", "anchors": ["raster_tools/raster.py: Raster.save_chunks"]}
{"id": "C65", "title": "Automatic overviews stop before they get too small", "statement": "save(path, overviews=True) builds overviews for exactly the factors 2, 4, 8, ... that leave at least 256 cells on the shorter side, in ascending order; a list of factors is used as it is; without the argument none are built.", "quantifier": "all heights and widths", "why_tests_cant": "Tests use small rasters, for which there are no overviews at all, and sizes at the limits matter.", "anchors": ["raster_tools/io.py: _auto_overview_factors, write_raster"]}
{"id": "C66", "title": "Extracted points hold the value of the cell they are in", "statement": "extract_points_eager(points, raster, name) reads, for each point and band, the value of the cell that contains the point, as a double, and NaN if the cell is null or the point is outside of the raster. With axis=0 there is one row per band and point, the points of the first band first, numbered from 0; with another axis one column per band, named name_band, with one value per point. An empty name, or geometries that are not points, are refused. Reading a raster at its own to_points gives the values of the points back.", "quantifier": "all rasters with an invertible affine, all lists of points, names and axes", "why_tests_cant": "Cells are found by the affine, so points on cell borders and rasters with a positive y step take other paths; the order and numbering of rows only show with several bands and points.", "anchors": ["raster_tools/zonal.py: extract_points_eager, _get_points_data"]}
{"id": "C67", "title": "Polygons cover exactly the cells of their value", "statement": "r.to_polygons() has exactly one row for every band and every value that a non-null cell of the band has. Its polygons cover exactly the non-null cells of the band with that value. Neither the chunks nor the neighbors argument (4 or 8, others are refused) change the rows or the regions they cover.", "quantifier": "all rasters, dtypes, masks, chunkings and affines without rotation", "why_tests_cant": "Regions that cross chunks are joined again, and every dtype is converted to one that rasterio supports and back; tests use few chunks and values that fit.", "anchors": ["raster_tools/raster.py: Raster.to_polygons, _shapes_delayed, _get_rio_shapes_dtype"]}
{"id": "C68", "title": "Line lengths do not depend on how the work is divided", "statement": "line_stats.length(features, like, radius) holds in every cell the sum of the lengths of all features within the radius of the cell's centre, each times its value of weighting_field if one is given. Empty and invalid geometries do not count. The result depends neither on the chunks of the raster, nor on the partitions of the features, nor on the batches in which many or complicated geometries are processed. Anything but lines, radii that are not positive, rasters without CRS and fields that are not numbers or booleans are refused.", "quantifier": "all rasters, chunks, partitions, features, radii and weighting fields", "why_tests_cant": "Features are clipped to each chunk and split into batches by count and by number of vertices; tests can only try few combinations, and the ones in the repository use a single name for the weighting field.", "anchors": ["raster_tools/line_stats.py: length, _length_chunk, _length, _get_indices_and_lengths, _compute_lengths"]}
{"id": "C69", "title": "Batch scripts are run line by line", "statement": "Raster(\"x.bch\") runs a batch script. Comments and blank lines are ignored; every other line is name = FUNCTION(arguments) with one of eight functions (in any case), and anything else raises an error. Lines are run in order. A name used as an argument stands for the raster that the last earlier line gave to it, or else for a file relative to the script. Blanks around names, functions and arguments do not matter. The result is the raster of the last line.", "quantifier": "all texts of scripts, file systems and rasters", "why_tests_cant": "The repository has almost no tests of scripts; several of the functions fail for every input.", "anchors": ["raster_tools/batch.py: parse_batch_script, _parse_raster, _batch_parse_arithmetic, _batch_parse_extract_band, _batch_parse_null_to_value, _batch_parse_remap, _batch_parse_composite, _batch_parse_open, _batch_parse_save, _batch_parse_set_null"]}
{"id": "C70", "title": "The topographic position index compares a cell with its annulus", "statement": "surface.tpi(dem, inner, outer) holds, for every valid cell, the integer part of value - mean + 0.5, where the mean is over the valid cells of the raster within distance outer - 1 (in cells) and, unless inner is 0, farther than inner - 1. The cell is null if the cell of the raster is null or there is no valid cell in the annulus. The result does not depend on the chunks. Exactly integers 0 <= inner < outer are accepted, if the annulus is not larger than the raster.", "quantifier": "all rasters, radii and chunks", "why_tests_cant": "Rasters without a null value whose annuli have no cells inside of the raster are not tested; tests compare with the same focal mean.", "anchors": ["raster_tools/surface.py: tpi", "raster_tools/focal.py: focal, get_focal_window"]}
{"id": "C71", "title": "Cost distance on rasters: nulls, least costs, ways back and allocation", "statement": "cost_distance_analysis(costs, sources, elevation, connectivity) returns three rasters on the grid of costs that are null in the same cells: those that are null in costs (negative costs count as null) and those that no path of cells with valid costs and valid elevations joins to a source. Elsewhere the distance is the least cost of a path from a source, where a step costs its length in space times the mean of the two costs; following the traceback codes (1 to 8, 0 at a source) leads along a path of exactly that cost, through distinct cells, to a source, whose value (or position in the list of sources) is in the allocation; a source leads to itself. Sources are the valid cells of the sources raster or the listed cells. The null values are that of costs (or the default of float64), -1, and that of the sources (or -1).", "quantifier": "all one-band rasters, sources, resolutions and connectivities", "why_tests_cant": "Tests use a few small rasters of signed or float dtype, compare with stored output, and never use unsigned costs with nulls, elevations of -9999, float16, or sources in cells of negative cost.", "anchors": ["raster_tools/distance/cost_distance.py: cost_distance_analysis, _normalize_raster_data"]}
{"id": "C72", "title": "Proximity, allocation and direction rasters report real, nearest sources", "statement": "pa_proximity, pa_allocation and pa_direction accept exactly the documented arguments (a known metric, finite target values, a positive maximal distance, longitudes and latitudes for the great circle). Sources are the cells that are not null and hold one of the target values (or are finite and not zero if none is given). The result has the raster's shape, is null exactly where no source is within max_distance, and elsewhere holds the distance to a nearest source, the value of a nearest source, or the compass direction to it (0 at sources, 360 for north). It does not depend on how the raster is chunked.", "quantifier": "all rasters, dtypes, null values, target values, metrics, distances and chunkings", "why_tests_cant": "Tests use small float rasters and uint8 rasters with null value 0, for which writing the null value back is harmless, and maximal distances that cover the raster or are shorter than its sides.", "anchors": ["raster_tools/distance/proximity.py: pa_proximity, pa_allocation, pa_direction, _proximity_analysis, _proximity_analysis_chunk", "raster_tools/raster.py: get_raster"]}
{"id": "C73", "title": "Element-wise operations pair cells by place and arrays by broadcasting", "statement": "An element-wise operation of two rasters gives a raster with exactly the bands, y and x coordinates that both have, in the order of the first, and each of its cells combines the two cells with the same band and coordinates, never cells elsewhere; it is null if one of them is. It is accepted if neither raster has a null value or both are on the same grid, and bit operations only for integers and booleans. An array is accepted exactly if each of its at most three sizes, from the last on, is 1 or that of the raster (it never stretches the raster), and each cell is combined with the element that broadcasting pairs with it, whether the array is on the left or on the right; null cells stay null.", "quantifier": "all pairs of rasters with distinct coordinates, all arrays, element-wise functions and dtypes", "why_tests_cant": "Tests combine rasters of one grid, or arrays of the raster's own shape; pairs of grids and shapes that are equal in some dimensions only are too many to try.", "anchors": ["raster_tools/raster.py: _normalize_ufunc_other, _apply_ufunc, _RasterBase.__array_ufunc__", "raster_tools/utils.py: can_broadcast, merge_masks"]}
{"id": "C74", "title": "Bandwise operations give each band its value", "statement": "An operation on raster.bandwise and a list with one value for each band combines every cell of a band with the value of that band; a single value is combined with every cell. Every other array is refused.", "quantifier": "all rasters, arrays, element-wise functions and dtypes, with the array on either side", "why_tests_cant": "Tests use a raster of 4 bands and 5 columns only; what decides between acceptance and refusal is the relation of bands and columns.", "anchors": ["raster_tools/raster.py: BandwiseOperationAdapter, _normalize_bandwise_other", "raster_tools/utils.py: can_broadcast"]}
{"id": "C75", "title": "Grids are compared and combined correctly for stacks and mosaics", "statement": "Grids are taken for the same only if their CRS and shapes are equal and corresponding cells differ by a small part of a pixel; equal grids are the same. The union of grids (mosaic, stack_bands with join='outer') covers every grid and is no larger than needed; the intersection (join='inner') has only pixels covered by every grid, has all of those, and is refused exactly if there are none. Both have the resolution and the CRS asked for, or those of the first grid. For grids on one lattice of square pixels the result is on that lattice, so that no values are resampled. A grid passed as dst_grid is used as it is.", "quantifier": "all lists of grids (CRS, shapes, affines), resolutions and destination CRSs", "why_tests_cant": "Tests use a few pairs of aligned grids with square pixels in one CRS, and comparisons of small grids in which only the origin is changed.", "anchors": ["raster_tools/_grids.py: grids_close, are_all_grids_same, combine_grids, reproject_grid", "raster_tools/_stack.py: stack_bands", "raster_tools/_mosaic.py: mosaic"]}
{"id": "C76", "title": "The table of zonal statistics has the right rows, columns and cells", "statement": "zonal_stats returns one row per zone that occurs in the features, in ascending order; its columns are all pairs of a band and a statistic, bands in order and statistics in the order given (also if median is one of them). Each value is the statistic of the values, as float64, which the band has in the cells of the zone, null cells counting as NaN. With features of a vector a cell belongs to the last feature that covers it; with handle_overlap=True each feature has its own row, in the order of the features, of all cells that it covers, and for features that do not overlap both give the same rows. The long format has one row per zone and band with the same values, ordered by band and zone and numbered from 0. A feature raster is accepted if and only if it is an integer raster of one band on the grid of the data, whatever its chunks.", "quantifier": "all feature rasters and features, data rasters, lists of statistics, chunkings and statistics that do not depend on the order of values", "why_tests_cant": "Tests use rasters of one chunk with at most a few bands, and compare with the same group by operation.", "anchors": ["raster_tools/zonal.py: zonal_stats, _zonal_stats, _melt_part, _find_problem_stats, _raster_to_series"]}
{"id": "C77", "title": "Remap files are read line by line into a mapping", "statement": "A remap file is read exactly if each line is blank or has a number, a colon and a number or NoData, with blanks around them, and no two keys are equal as numbers (1 and 1.0 are). Numbers are ints without leading zeros, or floats with a point, an exponent or both; the mapping has the entries in the order of the lines, NoData standing for None. Any other line raises the parser's error, equal keys and files without an entry a ValueError, a missing file an IOError, and an argument that is neither a string nor a dict a TypeError. A mapping of integers written as lines key:value is read back.", "quantifier": "all texts of ASCII characters, all lists of lines, all arguments", "why_tests_cant": "Tests read a few well-formed files and a handful of bad lines; a regular expression has infinitely many lines, and parts that match nothing at all are easy to overlook.", "anchors": ["raster_tools/general.py: _INT_OR_FLOAT_RE, _REMAPPING_LINE_PATTERN, _str_to_float_or_int, _parse_ascii_remap_file, _get_remapping"]}
{"id": "C78", "title": "model_predict_vector appends the predictions and keeps the rest", "statement": "model_predict_vector keeps partitions, rows, index and columns of the vector and appends columns prefix1, prefix2, ... with the outputs of the model for the values of the fields, and NaN in rows with NaN in one of the fields, whatever the partitions are. A model that gives another number of outputs than n_outputs raises an error. Unknown fields and names that are taken raise a KeyError, n_outputs below 1 a ValueError, a prefix that is no string and fields that are not numeric a TypeError.", "quantifier": "all tables in all partitions, all fields, prefixes, numbers of outputs and models that treat each row alike", "why_tests_cant": "Tests use vectors of one partition with some NaN, and models with the right number of outputs.", "anchors": ["raster_tools/general.py: model_predict_vector, _pred_df"]}
{"id": "C79", "title": "reproject puts what the resampling makes of the valid cells on the destination grid", "statement": "reproject returns a raster on the given geobox, or on the grid of the raster brought into the given CRS, at the given resolution (a number or a tuple), with rows from north to south and columns from west to east, and with the bands and dtype of the raster. Each cell has the value which the resampling method makes of the valid cells of its band, and is null exactly where it makes none; with 'nearest' that is the value of the cell that it is taken from. If the destination is the raster's own grid, the raster is returned unchanged. An unknown method, no destination and a resolution that is not positive raise a ValueError.", "quantifier": "all rasters with one null value or none, all destinations, resolutions and methods, and all resamplings that only see the valid cells", "why_tests_cant": "Tests reproject a few files and compare with rioxarray or odc-geo, with a null value set and a resolution that is a number.", "anchors": ["raster_tools/warp.py: reproject", "raster_tools/raster.py: dataarray_to_xr_raster_ds, normalize_xarray_data"]}
{"id": "C80", "title": "data_to_raster puts each element of the arrays at its coordinates", "statement": "data_to_raster returns a raster in which every element of the array is found, band by band, at the coordinates that belong to its row and column: those of the affine if it is given, else x and y (lists or arrays), else the centers of unit cells with the origin at the lower left. A mask stays with its elements. Without a mask the null cells are those that hold nv; with one they are those of the mask, nv defaults to that of the dtype, and the values under the mask are replaced by nv if burn is set and kept otherwise. Rows go down and columns up in the result. Data that are no array raise a TypeError; data that are neither 2d nor 3d, a mask of another shape, coordinates of a wrong length and only one of x and y raise a ValueError. data_to_raster_like takes the coordinates of the template, and raises a ValueError if rows or columns differ.", "quantifier": "all arrays, masks, coordinates in any order, axis-aligned affines, null values and both settings of burn", "why_tests_cant": "Tests use a few square arrays, mostly with default coordinates or rows that go down already.", "anchors": ["raster_tools/raster.py: normalize_data, data_to_xr_raster, data_to_xr_raster_ds, data_to_xr_raster_ds_like, data_to_raster, data_to_raster_like", "raster_tools/_grids.py: build_coords"]}
{"id": "C81", "title": "open_dataset makes a raster of each variable with its values at their coordinates", "statement": "open_dataset returns one raster for each variable of the file that has two or three dimensions, not counting those of length 1, under the name of the variable and in the order of the file. Every element of the variable is found in the raster at its coordinates and in its band, and is null exactly if it is the null value of the variable. A variable with more dimensions raises a DimensionsError; with ignore_extra_dim_errors variables that cannot be rasters are left out. If no variable is left a ValueError is raised, and an AffineEncodingError if the stored transform cannot be read.", "quantifier": "all files, with dimensions in any order, any coordinates and null values", "why_tests_cant": "Tests open two files whose variables have the dimensions in the usual order on regular grids.", "anchors": ["raster_tools/io.py: open_dataset, _get_valid_variables, _build_raster, _get_affine"]}
{"id": "C82", "title": "open_vectors opens exactly the layers asked for", "statement": "open_vectors reads the layers with the given names or numbers, in the given order, or all layers for None. Each vector has all features of its layer in order, numbered from 0, and their number as size. A single layer is returned as a Vector and several as a list. Unknown names, numbers out of range or below 0 and an empty list raise a ValueError, other arguments and mixtures a TypeError, a missing file an IOError. get_vector accepts a path only if the source has one layer. save returns the vector that was saved.", "quantifier": "all sources with any number of layers and features, all arguments", "why_tests_cant": "Tests open a few files with one or two layers.", "anchors": ["raster_tools/vector.py: open_vectors, _normalize_layers_arg, count_layer_features, get_vector, Vector.save"]}
{"id": "C83", "title": "Vectors made from a vector keep its features", "statement": "copy, calculate_spatial_partitions, to_crs, cast_field, buffer, simplify, load and spatial_shuffle succeed on every vector and return a vector with the same features, of the same number, with the attributes unchanged but for the cast field, and, except after spatial_shuffle, in the same order and with the same index.", "quantifier": "all vectors: any features, index values and partitions", "why_tests_cant": "Tests derive vectors from files, whose features are numbered from 0.", "anchors": ["raster_tools/vector.py: Vector.copy, to_crs, cast_field, buffer, simplify, load, spatial_shuffle, calculate_spatial_partitions"]}
{"id": "C84", "title": "Blocks of geo_map_blocks and geo_map_overlap carry the coordinates of their cells", "statement": "geo_map_blocks and geo_map_overlap pass every block on with the CRS and the band, y and x coordinates of its cells in the first raster, so for a function that computes a cell from its coordinates and what is around it within the depth, every cell of the result is that function of the true coordinates and of the rasters continued by the boundary, whatever the chunks. The result is on the grid of the first raster. Rasters on another grid raise a ValueError. For functions that do not look at the coordinates they are map_blocks and map_overlap.", "quantifier": "all rasters on straight grids, chunks, depths, boundaries, null values, out_bands, and all such functions", "why_tests_cant": "Tests compare the coordinates of a few blocks with those of the block info, which is also what they are made from.", "anchors": ["raster_tools/blocks.py: geo_map_blocks, geo_map_overlap, _build_geo_wrapper, GeoBlockInfo.to_dataarray, _resolve_gbi_with_overlap_pad"]}
{"id": "C85", "title": "pad covers the target and keeps the grid", "statement": "pad(raster, target) gives a raster on the same grid that covers at least the extent of the target (four numbers, a GeoBox, a raster or a path) and the raster itself, with no row or column more than needed; every cell of the raster is found at its coordinates. A target within the raster adds nothing. Targets in another known CRS, and sequences of anything but four numbers, raise a ValueError, other types a TypeError.", "quantifier": "all rasters on north-up grids and all targets", "why_tests_cant": "Tests only pad by whole cells of size one.", "anchors": ["raster_tools/_padding.py: _resolve_bounds, pad; raster_tools/raster.py: Raster.bounds"]}
{"id": "C86", "title": "The grid of an aggregated raster", "statement": "aggregate(raster, (ey, ex), stype) gives a raster with the CRS of the raster, whose cells are the windows: its resolution is that of the raster times (ex, ey), the coordinates are the middles of the windows, and the corners of each cell by affine, xy and bounds are the corners of its window.", "quantifier": "all rasters on north-up grids, windows and statistics", "why_tests_cant": "Tests compare the values of the result only.", "anchors": ["raster_tools/general.py: aggregate; raster_tools/raster.py: normalize_xarray_data, Raster.affine, Raster.resolution, Raster.bounds"]}
{"id": "C87", "title": "Great circle distance", "statement": "With distance_metric 'haversine' the distance between two cells is the length of the shortest path along a sphere of radius 6371009 m between the points with their longitudes and latitudes, whatever the order of the two, and longitudes that differ by 360 degrees are the same. Coordinates outside of [-90, 90] and [-180, 180] or [0, 360] are a ValueError. A cell with a source within max_distance is not null: the overlap of chunks spans all rows and columns within max_distance.", "quantifier": "all coordinates, rasters of sources, maximum distances and chunks", "why_tests_cant": "Tests compute distances of a few points and use the same formula; none has chunks, rows in the south or columns across the antimeridian with this metric.", "anchors": ["raster_tools/distance/proximity.py: _haversine_dist_sqr, _validate_lonlat_coords, _estimate_min_resolution, _proximity_analysis"]}
{"id": "C88", "title": "Mosaic of rasters", "statement": "mosaic(rasters) returns a raster on dst_grid (or the union of the grids), with rows from north to south, with the dtype asked for (or the common dtype of the rasters), the null value asked for (or the one of the first raster that has one, or the default of the dtype) and as many bands as the raster with most bands. Each cell is chosen by the method ('first', 'last', 'min', 'max') among the valid cells of the rasters, reprojected to the grid and converted to the dtype; null cells of the rasters never take part, whatever the null values of the rasters are, and a cell is null iff no raster has a valid cell there. Unknown methods and an empty list are a ValueError; a null value that is no number, or a grid that is none, is a TypeError.", "quantifier": "all lists of rasters with any null values, dtypes, bands and grids; all arguments", "why_tests_cant": "Tests mosaic rasters that share their null value, or have null values far apart; none has NaN in one raster and a number in another, null values that are nearly equal, or booleans.", "anchors": ["raster_tools/_mosaic.py: mosaic, _mosaic, _paint", "raster_tools/_grids.py: _build_empty_raster_from_grid", "raster_tools/raster.py: Raster.astype", "raster_tools/masking.py: reconcile_nullvalue_with_dtype"]}
{"id": "C89", "title": "Rounding keeps nulls and gives the nearest multiple", "statement": "r.round(decimals) has the dtype, shape, mask and null value of r. Null cells hold the null value. Each valid finite cell holds the multiple of 10**-decimals nearest to its value, and of two that are equally near the even one; NaN and infinities are kept. Rounding again changes nothing, and rounding keeps the order of cells.", "quantifier": "all rasters other than booleans, with or without null value; all integers decimals", "why_tests_cant": "Tests round a few floats to a few decimals; none rounds integers of a small dtype to tens, where the nearest multiple is no number of the dtype, or a value next to the null value.", "anchors": ["raster_tools/raster.py: Raster.round, make_raster_ds"]}
{"id": "C90", "title": "Polygons of a raster rasterize to the raster", "statement": "For each band of r, the rows of r.to_polygons() with that band, rasterized by their column 'value' onto r, give the band back: the same dtype, null cells where the band has null cells (or NaN), and the values of the band elsewhere. This holds for both neighbourhoods, every overlap method, all chunks of r and all partitions of the vector. With mask=True the result is 1 at the cells that are not null and 0 elsewhere, or the other way around if inverted.", "quantifier": "all rasters with axis-aligned grids, any bands, dtypes, values, masks and chunks; both neighbourhoods; all methods; all partitions of the table", "why_tests_cant": "Tests polygonise and rasterize separately, on small fixtures; none goes there and back, so values that equal the default null value of the dtype, or need more than 32 bits, are not met.", "anchors": ["raster_tools/raster.py: Raster.to_polygons", "raster_tools/rasterize.py: rasterize, _rasterize_onto_chunk"]}
{"id": "C91", "title": "Cost distance over constant costs", "statement": "With a cost raster that is c in every cell and no elevation, cost_distance_analysis gives at each cell c times the distance to the nearest source. With connectivity 4 the distance is the sum of that along rows and that along columns. With connectivity 8 it is that of as many diagonal steps as possible followed by straight steps. Cells are null if and only if there are no sources at all.", "quantifier": "all sizes, cell sizes (not only square), constants c >= 0, dtypes, numbers and places of sources, sources given as raster or as list", "why_tests_cant": "Tests compare one fixture per connectivity with stored results of another program; a formula for all grids and all placements of sources is not checked.", "anchors": ["raster_tools/distance/cost_distance.py: cost_distance_analysis, _cost_distance_analysis_core"]}
{"id": "C92", "title": "Zonal statistics of regions", "statement": "zonal_stats(regions(r, neighbors, unique_values), r, stats) has one row for each patch of r: a largest connected set of valid cells with the same value, not 0 or NaN, and among unique_values if given. The statistics of the row are those of a list that holds the value of the patch as often as the patch has cells, so min, max and mean are the value, count is the number of cells, nunique is 1. Besides the rows of patches there is at most one row, for label 0.", "quantifier": "all rasters with one band, any dtype, values, masks and null values, both neighbourhoods, all lists of values and statistics, all chunks", "why_tests_cant": "regions and zonal_stats are tested separately with null values that are not labels; the null value is inherited by the labels and zonal_stats looks for it among them.", "anchors": ["raster_tools/general.py: regions, _create_labels", "raster_tools/zonal.py: zonal_stats, _zonal_stats"]}
{"id": "C93", "title": "Totals are kept by aggregation", "statement": "For a window whose sides divide the height and the width of the raster: aggregate(r, window, 'sum').sum() equals r.sum(), aggregate(r, window, 'max').max() equals r.max(), aggregate(r, window, 'min').min() equals r.min(), and if r has no null cells aggregate(r, window, 'mean').mean() equals r.mean() (in exact arithmetic).", "quantifier": "all rasters with finite values, any number of bands, dtype, mask and null value, all windows that divide the raster, all chunks of both arrays and all trees of the reduction", "why_tests_cant": "Tests of aggregate compare with xarray's coarsen on small values, never totals of 8 bit rasters with a null value, whose sums are kept in half precision.", "anchors": ["raster_tools/general.py: aggregate", "raster_tools/raster.py: _ReductionsMixin"]}
{"id": "C94", "title": "Terrain seen from the other side", "statement": "Reversing the columns of a raster of elevations reverses the columns of slope, curvature and surface_area_3d, exchanges east and west in aspect, and hillshade is reversed if the azimuth is taken as 360 minus it; reversing the rows does so with north and south and 180 minus the azimuth. Exchanging rows and columns together with the sides of the cells transposes slope, curvature and surface_area_3d and exchanges west and north in aspect. Multiplying the elevations by k > 0 multiplies slope(degrees=False) and curvature by k and leaves aspect as it is. Negating them leaves slope and surface_area_3d as they are, negates curvature and turns aspect to the opposite direction. Null cells and edges stay null, and level cells keep the aspect -1.", "quantifier": "all rasters of elevations, with any values, masks, chunks (of both rasters), resolutions of any sign, azimuths and altitudes", "why_tests_cant": "The tests compare with a second implementation of the same formulas for one raster, so a formula that favours a side (as the surface area does, which knows only the width of a cell) is not noticed.", "anchors": ["raster_tools/surface.py: slope", "raster_tools/surface.py: aspect", "raster_tools/surface.py: curvature", "raster_tools/surface.py: surface_area_3d", "raster_tools/surface.py: hillshade"]}
{"id": "C95", "title": "A float null value that fits a float dtype is kept", "statement": "reconcile_nullvalue_with_dtype(x, dtype) of a floating point number x that is a number of the floating point dtype returns x, without a warning. A finite x outside of the range of dtype is replaced by the default null value of dtype, with a warning; NaN is replaced by it without one; the infinities are kept.", "quantifier": "for all floating point numbers, all floating point dtypes, NumPy 1 and 2 casting rules", "why_tests_cant": "Tests try a handful of values with one NumPy version; the numbers that are replaced or rounded lie between bounds that come from the ranges of other types.", "anchors": ["raster_tools/masking.py:reconcile_nullvalue_with_dtype", "raster_tools/masking.py:get_default_null_value"]}
{"id": "C96", "title": "Functions that pass values on keep null cells apart", "statement": "get_bands, set_null, pad without fill values, dilate, erode, clip, erase and mask, applied to a raster any number of times and in any order: every valid cell of the result holds the value of a valid cell of the raster, dtype and null value are those of the raster, and null cells hold it. So if no valid cell of the raster holds the null value, none of the result does, and the result that is saved and opened again has the same null cells and the same values elsewhere. The same goes for the most frequent value of windows or bands (aggregate and local_stats with 'mode').", "quantifier": "all rasters and null values, all sequences of these functions with any arguments and chunks", "why_tests_cant": "Tests apply one function to a raster whose null value lies far from its data and look at the mask in memory; they do not chain functions or read results back from files.", "anchors": ["raster_tools/raster.py: Raster.get_bands, set_null, save", "raster_tools/_padding.py: pad", "raster_tools/general.py: dilate, erode, aggregate, local_stats", "raster_tools/clipping.py: clip, erase, mask"]}
{"id": "C97", "title": "Zones add up to the raster", "statement": "In each band the sums that zonal_stats gives for the zones add up to the sum of the cells that are not null and lie in a zone, and the counts to their number. If every cell that is not null lies in a zone, Raster.sum() is the sum of the sums over zones and bands, Raster.mean() this sum divided by the sum of the counts, Raster.min() the least minimum and Raster.max() the greatest maximum.", "quantifier": "all feature rasters, data rasters with any number of bands, blocks and orders of combination", "why_tests_cant": "Tests compare zonal_stats with values computed for one array with a few zones, and the reductions with NumPy; they do not compare the two with each other for arbitrary zones, null cells and chunks.", "anchors": ["raster_tools/zonal.py: zonal_stats", "raster_tools/raster.py: Raster.sum, mean, min, max"]}
{"id": "C98", "title": "Functions of windows agree", "statement": "For a raster with a null value, dilate gives each cell that is not null the value that focal gives with 'max' and a rectangle of the same size; null cells stay null in the result of focal and take the maximum of their neighbours in that of dilate. With odd sides, erode gives each cell that it does not make null the value of focal with 'min'. For a raster without a null value and odd sides both agree in every cell. The sum of focal over any window is correlate with the weights of the window and zero beyond the edge (odd sides for rasters without a null value), each in its own dtype.", "quantifier": "all rasters of numbers, sizes, windows and chunks of both calls", "why_tests_cant": "Tests compare each function with scipy or a loop on a few small arrays; they do not compare the functions, which pad, mask and place even windows by different code.", "anchors": ["raster_tools/general.py: dilate, erode", "raster_tools/focal.py: focal, get_focal_window, correlate"]}
{"id": "C99", "title": "A mosaic by extremes is the local statistic of the stack", "statement": "For rasters with one band, mosaic with 'min' or 'max' gives the null cells and values that local_stats with the same statistic gives for band_concat of the rasters on the grid of the mosaic.", "quantifier": "all lists of at least two rasters with one band and finite values, grids, dtypes and null values", "why_tests_cant": "Tests check mosaic, band_concat and local_stats on separate examples; the three treat null cells and dtypes by different code.", "anchors": ["raster_tools/general.py: band_concat, local_stats", "raster_tools/_mosaic.py: mosaic"]}
{"id": "C100", "title": "Versions of NumPy and dask are ordered as releases", "statement": "The flags for NumPy 2 and 2.2 that are set on import, and the keyword for medians in zonal_stats, are chosen by the order of releases: every version of NumPy or dask that is installed is accepted, a version counts as at least the bound exactly if it is not an earlier release, and missing numbers count as zero.", "quantifier": "all version strings", "why_tests_cant": "Tests run with the one version of each package that is installed, always a final release with three numbers.", "anchors": ["raster_tools/utils.py: version_to_tuple", "raster_tools/_compat.py: NUMPY_GE_2, NUMPY_GE_2_2", "raster_tools/zonal.py: _zonal_stats"]}
{"id": "C101", "title": "Aggregating twice", "statement": "aggregate with windows of a by b cells and then with windows of c by d cells gives the same shape, null cells and values as aggregate with windows of a*c by b*d cells, for 'sum', 'max', 'min' and 'mean'.", "quantifier": "all rasters with numbers that the dtypes involved hold, window sizes and null masks", "why_tests_cant": "Tests aggregate small rasters once with a few windows; nulls, edges that do not fill a window and dtypes combine in ways that no list of examples covers.", "anchors": ["raster_tools/general.py: aggregate"]}
{"id": "C102", "title": "Points of a raster rasterize to the raster", "statement": "The points that to_points makes of a band, rasterized by their values onto the grid of the raster, give the band back: its dtype, null cells and values, for each method of resolving overlaps, whatever the chunks and partitions.", "quantifier": "all axis-aligned rasters, bands, chunks, partitions, dtypes and null values", "why_tests_cant": "Tests check the points of to_points and the cells of rasterize on separate examples with few chunks.", "anchors": ["raster_tools/raster.py: Raster.to_points", "raster_tools/rasterize.py: rasterize"]}
{"id": "C103", "title": "Remapping by ranges of one number is reclassification", "statement": "On a raster of whole numbers, remap_range with the ranges (k, k + 1, v), whose left ends count by default, gives the same raster as reclassify with the dict {k: v}: the same dtype, null value and null cells, and the same values in the other cells. A new value None makes null cells in both.", "quantifier": "all rasters of whole numbers, tables with distinct keys, dtypes and null values", "why_tests_cant": "remap_range loops over the ranges in the order given and reclassify looks keys up in a typed dict after other conversions; tests compare neither with the other.", "anchors": ["raster_tools/general.py: remap_range", "raster_tools/general.py: reclassify"]}
{"id": "C104", "title": "Clipping to a box keeps the cells that meet the box", "statement": "clip_box keeps exactly the rows and columns of a north-up raster that have points in common with the inside of the box, with their coordinates, values and null cells; dtype, null value, bands and CRS stay the same. Cells that only touch the box are left out.", "quantifier": "all north-up rasters and boxes that at least two rows and two columns meet", "why_tests_cant": "Which rows and columns a box selects depends on how its sides fall between cell edges; tests have one box through cell centres and one along edges.", "anchors": ["raster_tools/clipping.py: clip_box"]}
{"id": "C105", "title": "Padding and clipping back changes nothing", "statement": "A raster that is padded to any target and then clipped to its old bounds with clip_box has its old coordinates, CRS, dtype, bands, values and null cells again. Its null value is the old one if it had one or a fill value was given.", "quantifier": "all north-up rasters with at least two rows and columns, targets and fill values", "why_tests_cant": "The position of the old cells in the padded raster depends on the rounding of the target's sides to the grid; tests do not combine the two functions.", "anchors": ["raster_tools/_padding.py: pad", "raster_tools/clipping.py: clip_box", "raster_tools/raster.py: Raster.bounds"]}
{"id": "C106", "title": "Kernels with a single one move the raster, windows of one cell leave it alone", "statement": "correlate with a kernel that is one in a single place and zero elsewhere gives every cell that is not null the number of the cell as many rows and columns away as that place is from the kernel's middle (zero if that cell is null); convolve moves the other way. In the middle of the kernel, or with a focal window of one cell and a statistic that gives back a single number, nothing changes. Null cells stay null.", "quantifier": "all rasters, kernel sizes, places in the kernel, boundary modes and chunks", "why_tests_cant": "Which cell a kernel's entry stands for depends on the parity of its sides and on the rotation that convolve makes; tests compare with scipy, which the code itself calls, for a few odd kernels.", "anchors": ["raster_tools/focal.py: correlate, convolve, focal, _correlate, _get_offsets"]}
{"id": "C107", "title": "Keyword arguments of the block functions reach the function as given", "statement": "map_blocks, map_overlap, geo_map_blocks and geo_map_overlap call the function with every keyword argument of the caller unchanged and, besides, with exactly those extras (masks, null values, block info, coordinates) that the function names as parameters. A keyword argument that has the name of an extra, of an option of dask or, with overlaps, is out_bands, is a ValueError, and so are no rasters at all and a dtype that contradicts meta. With return_mask the function must return a pair of arrays of one shape.", "quantifier": "all functions (parameter names), keyword arguments and returned values", "why_tests_cant": "A name missing from the lists of reserved names would let dask swallow an argument, or an extra overwrite one; tests try a few of the names.", "anchors": ["raster_tools/blocks.py: map_blocks, map_overlap, geo_map_blocks, geo_map_overlap, _check_reserved_kwargs, _check_no_dask_kwargs, _check_no_out_bands, _check_dtype_meta_agree, _pack_data_mask"]}
{"id": "C108", "title": "Pieces of a raster put together are the raster", "statement": "The mosaic, by 'first', 'last', 'min' or 'max', of pieces of a raster that cover it is the raster: same grid, dtype, null value, bands, null cells and values. Thus the mosaic of the four rasters of to_quadrants is the raster, and so is that of the rasters of get_chunk_rasters for a raster of one band. The pieces may overlap; what no piece covers is null.", "quantifier": "all rasters with a null value that no valid cell holds, all lists of pieces, chunks and the four methods", "why_tests_cant": "An off by one in the middle row or in the windows of the chunks loses or doubles a row only for some sizes, and the reprojection to the common grid must move no cell; tests mosaic a few rasters and look at quadrants separately.", "anchors": ["raster_tools/raster.py: Raster.to_quadrants, Raster.get_chunk_rasters", "raster_tools/_mosaic.py: mosaic", "raster_tools/warp.py: reproject"]}
{"id": "C109", "title": "Masks and boxes one after another", "statement": "Masking a raster with features and the result with others keeps, with their values, exactly the cells that both masks keep: the order does not matter, the same mask twice is the mask, and a mask followed by its inverse leaves no valid cell. Clipping a masked raster keeps the cells of the box that the mask keeps and the features touch. clip_box with one box and then with another keeps the rows and columns that meet both boxes; a box around the second one makes no difference.", "quantifier": "all rasters, features, boxes that leave two rows and columns, for which the functions give a result", "why_tests_cant": "Null values, masks and coordinates of a result are the input of the next call; a null value that is chosen anew, a mask that forgets older null cells, or coordinates that drift by half a cell show only in sequences.", "anchors": ["raster_tools/clipping.py: mask, clip, clip_box, _clip"]}
{"id": "C110", "title": "Expressions of rasters are worked out cell by cell", "statement": "An expression made of rasters, numbers and element-wise operations, such as ~((a < 3) & (b * 2 > a)), gives a raster whose bands and coordinates are those that all of its rasters have, in the order of the first raster, whose dtype follows NumPy's rules, and which is null at a place exactly if one of the rasters is null there; elsewhere it holds the number that the expression has for the numbers of the rasters at that place. So two expressions of the same rasters that are equal for numbers, such as ~(p & q) and ~p | ~q, give the same null cells and values. An expression fails only if an operation on the bits of integers is given floats, or rasters with null values lie on different grids.", "quantifier": "all expressions of any depth over rasters with distinct coordinates, numbers, and operations with one or more outputs", "why_tests_cant": "Every step chooses a new dtype and null value and fills null cells with it, so the intermediate values of null cells differ from expression to expression; tests look at single operations or a few fixed formulas.", "anchors": ["raster_tools/raster.py: _apply_ufunc, _normalize_ufunc_other, Raster.__array_ufunc__"]}
{"id": "C111", "title": "where obeys the laws of choosing", "statement": "where(c, x, y) and where(~c, y, x) are the same, whatever the operands, null cells, dtypes and null values are. As long as no valid value equals the null value in use: choosing by c and then by d, where(c, where(d, x, y), y), is where(c & d, x, y) wherever d is not null, and where(c, x, where(d, x, y)) is where(c | d, x, y) wherever d is not null; choosing by the same condition again changes nothing; where(c, r, r) is r with the null cells of c made null; and where(c, r, None) is r.set_null(~c).set_null(c.to_null_mask()).", "quantifier": "all boolean conditions with or without null cells, all operands (rasters, numbers, None), all dtypes and null values, every cell", "why_tests_cant": "The null value of the result is chosen from the operands by four rules and null cells are filled with it, so the two sides of each law go through different intermediate rasters; tests check single calls on small arrays.", "anchors": ["raster_tools/general.py: where, _get_where_nv", "raster_tools/raster.py: Raster.set_null, Raster.to_null_mask, _apply_ufunc"]}
{"id": "C112", "title": "The statistics of variety fit together", "statement": "For the same values (of a window of focal or aggregate, the bands of a cell in local_stats, a zone of zonal_stats), if not all of them are null: 'unique' is between one and the number of values, and equal to it exactly if no two values are equal; 'asm' is between 1/unique and 1, and 1 exactly if unique is 1; 'entropy' is between 0 and log(unique), at least -log(asm), and 0 exactly if unique is 1; the share of the 'mode' among the values is at least 1/unique, and asm is between its square and itself. The rasters that aggregate makes of 'unique' and 'asm' have the same null cells and meet these bounds.", "quantifier": "all lists of numbers, infinities and NaN of any length; all rasters with a null value, all window sizes, every cell", "why_tests_cant": "The functions count values with dicts and sets, each in its own loop; that their results never contradict each other is a statement about all lists of values.", "anchors": ["raster_tools/stat_common.py: nan_unique_count_jit, nanmode_jit, nanentropy_jit, nanasm_jit", "raster_tools/general.py: aggregate"]}
{"id": "C113", "title": "Cost distances behave like distances when the arguments change", "statement": "Null counted as farther than anything, for calls of cost_distance_analysis on the same grid: with more sources, lower costs, fewer null or barred cells, smaller cells, flatter ground or diagonal steps no distance becomes larger; costs m times and cells and elevations k times as large make every distance exactly k*m times as large and keep the null cells; the distance to two sets of sources together is the smaller of the two distances; the distance at t from the single source s is the distance at s from the single source t; the distance at a cell is at most the distance at t plus the distance from t; the distances of neighbouring cells that can be crossed differ at most by the cost of the step between them.", "quantifier": "all rasters of costs with or without null value, elevations, sources given as raster or indices, resolutions, both connectivities, factors and cells", "why_tests_cant": "Each statement compares several whole searches with a heap; tests compare single calls with stored arrays.", "anchors": ["raster_tools/distance/cost_distance.py: cost_distance_analysis, cost_distance_analysis_numpy, _cost_distance_analysis_core"]}
{"id": "C114", "title": "Proximity, allocation and direction speak of the same source", "statement": "Called for the same raster and arguments, pa_proximity, pa_allocation and pa_direction are null in the same cells, and elsewhere there is one source within max_distance such that the first holds the distance to it, the second its value and the third the direction to it. With the city block and chessboard metrics a smaller max_distance only turns cells null, namely those with all sources farther away; and the distance to the sources of two lists of target values is that to the nearer of the two, and null exactly if both are.", "quantifier": "all rasters, coordinates, metrics, lists of target values, maximal distances and chunks; every cell", "why_tests_cant": "Each function runs its own sweep over every chunk; ties and candidates that are passed on could lead to different sources. Tests compare each function with stored arrays.", "anchors": ["raster_tools/distance/proximity.py: pa_proximity, pa_allocation, pa_direction, _compute_proximity, _proximity_analysis"]}
{"id": "C115", "title": "The ways of rasterizing agree", "statement": "Rasterizing the same features with any field, null value, order of the features and overlap_resolve_method gives the same null cells; mask=True gives 1 elsewhere and null there, mask_invert=True the reverse. The values for 'first' and 'last' lie between those for 'min' and 'max'; 'first' for the reversed table is 'last' for the table; 'min' and 'max' do not depend on the order. For a table followed by another, a cell has the value of the table that is not null there, and of two values the one of the first, of the last, the smaller or the larger.", "quantifier": "all tables, partitions, rasters, chunks, fields and null values; every cell", "why_tests_cant": "Each method sorts the features of a chunk in its own way and has its own function to merge partitions; masks have another code path. Tests compare single calls with expected arrays.", "anchors": ["raster_tools/rasterize.py: rasterize, _rasterize_onto_chunk, _mask_onto_chunk, _resolve_first, _resolve_last, _resolve_min, _resolve_max"]}
{"id": "C116", "title": "Statistics of clipped rasters", "statement": "The sum of a raster is the sum of mask(raster, features) plus the sum of mask(raster, features, invert=True); its minimum and maximum are the lesser of the two minima and the greater of the two maxima. clip, which trims the raster, has the same valid values and sum as mask, which does not. The row that zonal_stats(handle_overlap=True) makes for a feature has, per band, the statistics of the valid values of mask(raster, feature); its sum, min and max are those of the reductions of that raster.", "quantifier": "all rasters, features, chunks, orders of combining blocks and statistics", "why_tests_cant": "Four functions rasterize the features on their own and treat null cells in their own way (null values, NaN, dropped values); tests look at each function alone.", "anchors": ["raster_tools/clipping.py: mask, clip, _clip", "raster_tools/raster.py: _ReductionsMixin.sum, min, max", "raster_tools/zonal.py: zonal_stats, _zonal_stats"]}
{"id": "C117", "title": "remap_range obeys the laws of ranges", "statement": "Ranges without common numbers may be given in any order; a range may be split at a number inside of it (unless inclusivity is 'none'); a range that earlier ranges cover may be left out; remapping the result of remap_range is one remap_range with a combined list, and the same call again changes nothing if the new values lie outside all ranges. remap_range(r, (lo, hi, new)) has the cells of where((r >= lo) & (r < hi), new, r), longer lists those of nested where, and remap_range(r, (lo, hi, None)) is r.set_null((r >= lo) & (r < hi)).", "quantifier": "all rasters, lists of ranges, inclusivities and new values; every cell", "why_tests_cant": "The loop over ranges, the comparisons, where and set_null are separate code with separate rules for dtypes and null values; tests use fixed lists of ranges.", "anchors": ["raster_tools/general.py: remap_range, _remap_values, where", "raster_tools/raster.py: Raster.set_null, _apply_ufunc"]}
{"id": "C118", "title": "reclassify obeys the laws of dicts", "statement": "The order of the dict does not matter; unmapped_to_null changes only the cells that are not keys, which become null; reclassifying the result of reclassify is one reclassify with the first dict followed by the second; if the values of the dict differ from each other and from the other cells, reclassify with the dict read backwards gives the raster back; for a raster with a null value a second call with the same dict object (which the first call changed) gives the same cells.", "quantifier": "all rasters, dicts, dtypes and both values of unmapped_to_null; every cell", "why_tests_cant": "The dict is turned into two arrays with their own dtypes, None is replaced by the null value in the caller's dict, and the result is masked again by value; tests use one or two fixed dicts.", "anchors": ["raster_tools/general.py: reclassify, _reclassify_chunk, _get_remapping"]}
{"id": "C119", "title": "regions obeys the laws of components", "statement": "regions of the result of regions is that result, number by number; replacing the values by others (for example with reclassify) so that equal values stay equal, different ones different, and null, 0 and NaN what they are gives the same regions, and also the same numbers if the order of the values is kept; with neighbors=8 the regions are unions of those with neighbors=4 and there are not more of them; with unique_values the cells of other values are 0 and the rest form the same regions; if some cells are made null or 0, the regions that are left lie within the old ones.", "quantifier": "all rasters, neighborhoods, lists of values and dicts; every band and every pair of cells", "why_tests_cant": "regions labels one value after another and adds offsets; the laws relate two or three calls on different rasters, tests compare one call with a fixed array.", "anchors": ["raster_tools/general.py: regions, _create_labels, reclassify"]}
{"id": "C120", "title": "Terrain lifted, added and zoomed", "statement": "Adding a constant to the elevations changes none of slope, aspect, curvature, surface_area_3d, hillshade, northing and easting. If the cells and the elevations are all k > 0 times as large, slope, aspect and hillshade stay the same, surface_area_3d is k*k times and curvature 1/k times as large. The curvature of the sum of two rasters is the sum of their curvatures, and the sum is at no cell steeper (degrees=False) than both together. slope(degrees=True) is the angle of slope(degrees=False). Null cells and edges are null in all of them.", "quantifier": "all rasters of elevations, constants, scales, pairs of rasters on one grid and chunks; every cell", "why_tests_cant": "The kernels read nine cells and are run block by block with a margin; tests compare with fixed arrays for single rasters.", "anchors": ["raster_tools/surface.py: slope, aspect, curvature, surface_area_3d, hillshade, northing, easting"]}
{"id": "C121", "title": "Statistics of bands in another order and in groups", "statement": "local_stats of a raster whose bands get_bands put into another order is the very same raster (dtype, null value, null cells, data) as local_stats of the raster itself, for every statistic that does not depend on the order of its values; this holds for 'unique', 'mode', 'asm' and 'entropy'. With a null value, bands that get_bands repeats do not change statistics that depend only on which values occur ('max', 'min'). For 'max', 'min', 'sum' and 'prod', local_stats of the band_concat of the local_stats of two groups of bands equals, cell by cell and null by null, local_stats of all bands. 'minband' of chosen bands points to a chosen band that holds the least value.", "quantifier": "all rasters, orders, repetitions and divisions of bands; every cell and any pattern of null cells", "why_tests_cant": "The result goes through NaN, promoted dtypes and a mask of its own at every step; tests compute each statistic once for one stack of bands.", "anchors": ["raster_tools/general.py: local_stats, band_concat", "raster_tools/raster.py: Raster.get_bands"]}
{"id": "C122", "title": "Dtypes and null values changed several times", "statement": "astype to a dtype that the raster's dtype can safely be cast to, and back, gives the null cells and the valid values of the raster (64 bit integers to floats excepted); a detour over another dtype changes nothing if it keeps what the last conversion makes of the values. set_null_value with the same number again changes nothing. After two null values one after the other, in either order, the null cells are those that were null or have either number, and the others keep their values. Another null value, or None, and then the old one again gives the raster back if no valid cell has one of the numbers.", "quantifier": "all rasters that are not boolean whose null cells hold the null value, all dtypes and null values", "why_tests_cant": "Null values decide about dtypes, and dtypes about null values; tests make one change and look at the result.", "anchors": ["raster_tools/raster.py: Raster.astype, Raster.set_null_value"]}
{"id": "C123", "title": "Predicting a raster and reading it at points is reading the raster at points and predicting the table", "statement": "For a model that treats its rows separately, points at which the bands of a raster are extracted (extract_points_eager with axis other than 0) and then predicted from with model_predict_vector get, for every output, the number that extract_points_eager reads at the point from the result of model_predict_raster: the prediction where all bands are valid, NaN outside of the raster and where any band is null. This holds for rasters whose valid cells are finite; NaN or infinite cells that are not null reach the model as 0 or the largest numbers on one way and not on the other.", "quantifier": "all rasters with finite valid cells, chunks, affine grids, lists of points, row-wise models, numbers of outputs and partitions of the table", "why_tests_cant": "The two ways share no code: one flattens chunks and fills nulls, the other drops rows with NaN and scatters the predictions back; tests check each with its own expected values.", "anchors": ["raster_tools/general.py: model_predict_raster, _pred_raster, model_predict_vector, _pred_df", "raster_tools/zonal.py: extract_points_eager, _get_points_data"]}
{"id": "C124", "title": "Values read at points fit together", "statement": "What extract_points_eager reads at a point depends on the raster and the point only: not on the other points, their order or number, nor on the axis (the rows of a band with axis=0 are its column with another axis). The columns of get_bands are the selected columns, those of band_concat are the columns of the rasters one after the other. A quadrant or chunk raster gives at the points inside of it what the raster gives, and NaN elsewhere; every point inside of the raster is inside of a quadrant and of a chunk raster.", "quantifier": "all rasters, grids, lists of points, bands, stacks, chunks", "why_tests_cant": "Each relation speaks of two calls with different arguments; tests compare one call with expected values.", "anchors": ["raster_tools/zonal.py: extract_points_eager, _get_points_data", "raster_tools/raster.py: Raster.get_bands, Raster.to_quadrants, Raster.get_chunk_rasters", "raster_tools/general.py: band_concat"]}
{"id": "C125", "title": "Calculating with rasters and reading at points is reading at points and calculating", "statement": "For an expression of rasters on one grid (operators, NumPy functions, numbers), the number that extract_points_eager reads from the expression's raster at a point is the expression of the numbers read from the rasters at that point, if none of them is NaN; it is NaN if the point is beside the rasters or one of the rasters is null in the cell of the point.", "quantifier": "all expressions of any depth, rasters on one grid, points, bands", "why_tests_cant": "The masks and values of the intermediate rasters have to be right in every cell; tests compare single operations, and points for given rasters.", "anchors": ["raster_tools/raster.py: _apply_ufunc, Raster.__array_ufunc__", "raster_tools/zonal.py: extract_points_eager, _get_points_data"]}
{"id": "C126", "title": "Changed rasters read at points", "statement": "What extract_points_eager reads from a raster that was changed cell by cell follows from what it reads from the rasters before. set_null: NaN where the mask raster reads a number other than 0, else as before. astype: as before, if the dtype keeps the values. set_null_value: NaN where the new null value was read, else as before. where: NaN where the condition reads NaN, else what the raster chosen by the number read from the condition reads. reclassify: the value of the key read (NaN for None), the same number or NaN for numbers that are no key, NaN for NaN.", "quantifier": "all rasters, masks, dtypes, null values, conditions, dicts, affines, lists of points and bands", "why_tests_cant": "Holds for the combination of every change with every point; tests check the changes on whole arrays and points of unchanged rasters only. That a valid cell with the null value of the result is lost shows only for particular values.", "anchors": ["raster_tools/zonal.py: extract_points_eager, _get_points_data", "raster_tools/raster.py: Raster.set_null, Raster.astype, Raster.set_null_value, Raster.where, Raster.reclassify"]}
{"id": "C127", "title": "Padded and clipped rasters read at points", "statement": "extract_points_eager reads the same from a raster and from the raster padded with pad, at every point inside the raster. In the cells that pad adds it reads NaN without a fill value or if the fill value of the band is the null value, else the fill value; beside them NaN. From the raster clipped with clip_box it reads the same as from the raster at every point whose cell meets the box, and NaN at every other point.", "quantifier": "all rasters on a regular grid, targets, fill values, boxes that meet two rows and columns, lists of points and bands", "why_tests_cant": "Holds for every point and box; the cells must be at the same place of the plane after rows and columns were added or dropped, which an example with whole numbers shows only for some offsets.", "anchors": ["raster_tools/zonal.py: extract_points_eager, _get_points_data", "raster_tools/_padding.py: pad", "raster_tools/clipping.py: clip_box"]}
