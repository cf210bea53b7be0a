# Design of the formal model of raster_tools

The subject is `raster_tools` as found in `/repo`.  Nothing there is executed; every model definition in `lean/Verif` is a
hand translation of the Python text and cites the file and lines it was read from.

## Layout

`lean/Verif/<Area>/Model.lean` holds the definitions that mirror code.  `Lemmas.lean` and similar files hold helper lemmas.
`Spec.lean`, or the namespace `Spec` at the top of `Props.lean`, holds the small specification that does not use the model's
helpers.  `Props.lean` holds the property theorems; their names begin with the id of the property, and beside them stand
`example`s with a concrete case that meets the hypotheses.  A name that ends in `_partial` belongs to a theorem that proves
part of its property; its comment says what is missing.  Theorems that show a property to be false of the code are named
after what goes wrong (`C12_sum_of_seven_loses_values`) and are proved from a concrete input; they are counterexamples, not
evidence for the property.

## How the code is modelled

* **Exceptions** are values: `Except Err a` or `Option a`, branch by branch.
* **Arrays** of compiled (numba) code without bounds checks are modelled by `Arr` (size plus content) whose reads and writes
  return `none` when the index is out of range.  "Returns `some`" therefore carries memory safety.
* **Floating point** numbers are elements of a linear order or an ordered field (`WithTop R` where infinities matter, an
  explicit NaN where NaN matters), or `Num` (integers, floats by exact value, NaN, infinities, booleans) where values are
  stored and converted.  Rounding of arithmetic is not modelled unless a definition says so; conversions between data types
  are parameters with stated laws.
* **Loops** become recursion with fuel where the code's `while` has no syntactic bound; the theorems show that the fuel is
  never what ends the loop.
* **dask** is modelled by what its scheduler may do: any chunking, any reduction tree, any overlap with the documented
  boundary rule.  The theorems quantify over them.
* **Third party calls** (scipy's `label`, GDAL's rasterization, shapely's predicates, pandas' group-by, rioxarray's window
  selection) are parameters or explicit small models.  What is assumed of a parameter is a hypothesis of the theorem; where
  the hypothesis is more than a line, something that meets it is constructed and proved to meet it.

## Per property

| id | status | model | code modelled | how it is proved | what is missing, or conditions |
|----|--------|-------|---------------|------------------|--------------------------------|
| C01 Indexed heap behaves like a map from values to keys | proved | `Heap` | whole of `distance/_heap.py`, arrays with checked access | representation invariant (leaf array = entries, inner nodes = minimum of children, crossrefs inverse of values); each operation preserves it and commutes with the abstraction to a map; induction over histories | Every history of push/push_if_lower/pop on a fresh heap refines the map specification Spec.Runs, with count = number of entries. Keys from any linear order with top (np.inf); NaN keys excluded. |
| C02 Heap never touches memory outside its arrays | proved | `Heap` | same | same invariant: no operation returns `none` | All array accesses are checked in the model; no history returns none. int64/int8 overflow not modelled. |
| C03 Heap result flags are truthful | proved | `Heap` | same | corollary of the one-step refinement lemmas | Flags characterised by iff in every reachable state. |
| C04 Draining the heap yields every stored value once, in key order | proved | `Heap` | same | induction over the number of pops | Draining is a sorted enumeration of the map; reports agree for all pairs of capacities (the value reported by pop on an empty heap is excluded, it is a stale slot and can differ). |
| C05 Cost distance is the true least accumulated cost | proved | `CostDistance` | `_cost_distance_analysis_core`, `cost_distance_analysis_numpy` on top of the heap model | Dijkstra invariant over the refined queue; the specification is the least cost over an inductive path predicate | Dijkstra invariant over the heap model; arithmetic over an ordered field, sqrt any non-negative function (instantiated to Real.sqrt). NaN costs are barriers; NaN elevations excluded. |
| C06 Cost distance reaches exactly the reachable cells | proved | `CostDistance` | same | corollary of the same invariant | Reached iff a path exists; unreached cells keep inf, -2, null allocation; non-source barriers unreached. |
| C07 Traceback leads to the allocated source along a path that costs what was reported | proved | `CostDistance` | same | invariant on traceback and allocation; the trail ends because costs were finalised in order | Trail along documented traceback codes, Nodup, in the grid, cost equals distance, allocation equals the source value. |
| C08 The cost distance search always finishes inside its iteration budget | proved | `CostDistance` | same | each iteration finalises a new cell; their number is bounded by the size | Every cap of at least size gives the same final state as the shipped cap, queue empty, popped cells distinct. |
| C09 Proximity reports real targets | proved | `Proximity` | `_process_proximity_line`, `_compute_proximity` | invariant: every stored candidate is a real target within the maximum | Any metric with zero self distance, any max_distance (squared distances stored, the final square root is applied cell by cell). |
| C10 Mosaic 'first' and 'last' pick the right raster | proved | `Mosaic` | `_paint`, `_paint_recursive`, `_mosaic_single_band`, `_nb_push` per cell | induction over the recursion and the scan | Any number of rasters and bands. Cells equal to the output null value do not count (third theorem shows one being skipped). |
| C11 Mosaic 'min' and 'max' are the extreme valid values | proved | `Mosaic` | same | lattice laws of min and max with NaN and type limits | Integer data types with arbitrary limits, floats with NaN and infinities. |
| C12 Mosaic 'sum' adds all valid values | partial | `Mosaic` | same | induction over the halving; counterexample from seven rasters on | Proved for fewer than seven rasters, or if no partial sum of consecutive rasters equals the null value. False otherwise: counterexample with seven rasters, and totals equal to the null value become null. |
| C13 Mosaic result does not depend on chunking or evaluation tree | proved | `Mosaic` | `_dask_push` as block-wise scan with Blelloch combination | monoid law of `_push_binop_last`; fold over chunks equals fold over the list | All block splits and all combination trees; dask's Blelloch scan is modelled as an arbitrary tree over the block summaries. |
| C14 Null propagates through arithmetic and only valid cells are combined | proved | `Nulls.RasterModel` | `_apply_ufunc`, `_normalize_ufunc_other`, `merge_masks`; the ufunc and its type resolution are arbitrary | case analysis per cell | Rasters of one shape; the ufunc and its type resolution are arbitrary. |
| C15 set_null only adds nulls | proved | `Nulls.RasterModel` | `set_null`, `burn_mask` | Boolean algebra per cell | Conversion of the mask to boolean is x != 0. |
| C16 Changing the null value keeps valid data and null cells | partial | `Nulls.RasterModel` | `set_null_value`, `replace_null` | case analysis over data types and values | Proved for all dtypes but bool and, for the kept values, all but 64 bit integers that turn into floats. Counterexamples for both, and NaN is a KeyError for 64 bit integers. |
| C17 astype preserves the null mask and converted values | partial | `Nulls.RasterModel` | `astype` | case analysis | Proved without a new null value, and with one that is not close to the old one. Counterexamples: close values, rasters without null value, NaN. |
| C18 Null values are reconciled with the data type | proved | `Nulls.ScalarModel` | `reconcile_nullvalue_with_dtype`, `DTYPE_TO_DEFAULT_NULL`, both NumPy casting rules | decision tables over all data types, integers unbounded | Any NumPy whose conversion leaves integers that fit unchanged; both casting rules. Default of every dtype, floats by significand and exponent. |
| C19 Common dtype can hold every integer literal | proved | `Nulls.ScalarModel` | `get_common_dtype`, `safe_min_scalar_type` | case analysis over the candidate list, induction over the items | np.promote_types and np.can_cast are modelled by their tables. Literals that fit no type together are ignored; explicit dtypes with float16 or float32 may give order dependent results (witnesses). |
| C20 xy and index are inverse on the grid | proved | `Grid` | `rowcol_to_xy`, `xy_to_rowcol`, the affine package's product, application and inverse | arithmetic in an ordered field with floor | Any invertible affine transform over an ordered field with floor; the affine package's product, application and inverse are modelled. |
| C21 Chunks partition the raster | partial | `Grid` | `chunks_to_array_locations`, `get_chunk_rasters`, `get_chunk_bounding_boxes`, block infos | induction over the chunk list | Proved but for get_chunk_bounding_boxes on chunks with a single row or column, where rioxarray cannot derive the resolution (counterexample). |
| C22 to_points lists every non-null cell once | partial | `Grid` | `_vectorize`, `to_points` | bijection between flat index and (band, row, column) | Proved for axis-aligned grids with a projected CRS. With a geographic CRS to_points raises a KeyError. |
| C23 Stacking then splitting bands gives the inputs back | proved | `Bands` | `stack_bands`, `split_bands` | list induction | Inputs on one grid; reprojection is not modelled. The null cells of a stack may hold a value other than its null value (counterexample). |
| C24 Padding never disturbs the original cells | proved | `Bands` | `_validate_fill_values`, `pad` | case analysis per cell | The rows and columns added by rioxarray's pad_box are arbitrary numbers. A fill that wraps around to the null value is not marked null (counterexample). |
| C25 remap_range applies the first matching range and nothing else | proved | `Remap` | `_normalize_mappings`, `_remap_values`, `remap_range` | induction over the ranges | Range bounds and outputs that the conversions to their common dtypes leave unchanged. Valid True cells of masked boolean rasters equal the null value and become null (counterexample to the stronger reading). |
| C26 reclassify is a pure table lookup | partial | `Remap` | `_get_remapping`, `_reclassify_chunk`, `reclassify`, the dictionary as association list with numba's key cast | case analysis, list lemmas | The lookup is proved for values that the dictionary's key type holds. False otherwise: fractions are truncated to integer keys (numba's cast), and the caller's dictionary is changed so that a second identical call differs. |
| C27 where selects cell by cell and propagates null as documented | partial | `Remap` | `where`, `_get_where_nv` | case analysis per cell | Exact behaviour proved; it is the documented one if no selected value equals the result's null value. Counterexamples otherwise. |
| C28 regions labels are exactly the connected components of equal value | proved | `Regions` | `_create_labels`, `regions`; scipy's `label` is a parameter with its specification | induction over the value list with an offset invariant; existence of a labeller by counting components | scipy's label is a parameter with its specification as hypothesis; a labelling meeting it is proved to exist. Labels are unbounded naturals. With repeated values labels collide (counterexample). |
| C29 Focal statistics do not depend on chunking | partial | `Focal` | `_get_offsets`, `_focal_chunk`, `_focal`, dask's overlap | index arithmetic: each chunk-local window is the global window | All statistics, windows and chunks for rasters with a null value, and all but min, max and sum without one. Those three go through scipy: proved for circles and odd rectangles (min, max) and odd windows (sum); counterexamples for an even window and for an annulus at the edge. |
| C30 Focal windows have the documented shape | proved | `Focal` | `get_focal_window` | comparison of squared radii; membership characterisation | Exact for every radius; the float comparison sqrt(d) <= r is modelled as d <= r^2. |
| C31 Correlation ignores nulls and convolution is correlation with the flipped kernel | proved | `Focal.Correlate` | `_correlate2d_chunk`, `_correlate`, `convolve` | sums over finite offsets | Finite data and weights that survive conversion to the float type; all modes, chunks and kernels whose margin fits the raster. Sums are exact and rounded once. scipy leaves out weights of at most 2.2e-16 (rasters without a null value), which the model counts. |
| C32 Zonal statistics do not depend on partitioning | proved | `Zonal` | `_combine_values_and_counts` and the finishers; group-by modelled | counts are additive over partitions and trees; statistics depend on counts only | Every spread of the cells over partitions and every tree of combinations. Rasters whose mask marks the cells equal to the null value, a feature null value other than NaN; the conversion of the data to float64 is part of the statement. dask's and pandas' group-by are modelled. |
| C33 Rasterize resolves overlaps the same for every partitioning | partial | `Rasterize` | `rasterize`, the chunk functions, the tree reduction; which cells a geometry touches is an oracle with laws | lists of features, induction over trees | Proved for every partitioning, chunking and tree reduction if the null value is no NaN, no value equals it, min/max see no NaN values, no chunk has a single row or column, and the spatial partitions on the vector cover its features. Counterexamples for each condition, among them a second call with the same vector after a call without spatial partitions. Which cells a geometry touches, clipping and sorting are given by laws. |
| C34 clip and erase split the data between them | partial | `Clip` | `_clip`, `clip`, `erase`, `mask`, `envelope`, `clip_box` on top of Rasterize | the mask raster of C33, Boolean algebra per cell | Proved on top of the model of rasterize for rasters whose chunks (after trimming) have at least two rows and columns; otherwise both calls raise (proved). Which window a box selects is given by rioxarray. |
| C35 GeoBlockInfo windows stay aligned when padded or shifted | proved | `Grid` | `GeoBlockInfo._resize`, `pad*`, `shift` | integer and affine algebra, induction over histories | All integer amounts and all sequences of them. |
| C36 Overlap depth and boundary arguments are normalised or rejected | partial | `Blocks` | `_normalize_depth*`, `_resolve_boundary`, `_check_asymmetric_depth_compatible_with_boundary` | decision logic against an independent reading of depths | Every depth and boundary argument. A pair of zeros for the band axis describes no band overlap but is rejected (counterexample); everything else holds. Booleans count as integers. |
| C37 Surface derivatives are exact on planes and within their ranges | proved | `Surface` | kernels of `surface.py` over the reals | field arithmetic, real trigonometry | Real arithmetic and real trigonometric functions (no rounding, no infinities), every chunking. Curvature also on surfaces of second degree, hillshade as the cosine law for planes; the null edges are C53_null_cells and C53_hillshade. |
| C38 NaN-aware statistics ignore NaNs and order | partial | `Stats` | loops of `stat_common.py` | permutations, counts of sorted lists, loop invariants | Unique count, mode, asm and entropy proved for all sequences. nanargmin (nanargmax) proved if a value other than inf (-inf) occurs; otherwise it may return the position of a NaN (counterexample). nanmode sorts the caller's array. |
| C39 Feature ids and file partitions are unique and complete | partial | `Vector` | `_read_file_delayed`, `_get_len_from_divisions`, `_get_best_effort_geo_len`, `Vector.__init__`, `add_objectid_column` | induction over batches and partitions, injectivity of numerals, pigeonhole for names | Ids, names and batches hold in full. The size from the divisions never overcounts only for frames with consecutive index values; for a filtered frame it does (C39_overcount). A layer without features raises UnboundLocalError (C39_read_empty). |
| C40 Rows reshaped to nested lists keep their order | proved | `Utils.Reshape` | `list_reshape_2d`, `list_reshape_3d` | list induction | All lists, shapes and start indices; too short lists raise IndexError. |
| C41 Proximity reports the nearest target | partial | `Proximity.Exact` | as C09 | the sweep loses no nearest target for norms with a monotonicity law (taxi, chebyshev) | Proved for the taxi and chebyshev metrics on any regular grid. False for the default Euclidean metric (a 4x4 raster with 3 targets is a counterexample) and for the great circle metric (a row around the globe with 2 targets). |
| C42 Proximity does not depend on chunking | partial | `Proximity.Norm` | `_proximity_analysis` per chunk | nearest targets lie inside the overlap | For every metric a chunk reports real targets in range. Equality with the whole raster is proved for the taxi and chebyshev metrics, any chunk, if the fill value is not a target. False for the Euclidean metric (counterexample with cells 1 by 8: a target outside of reach and overlap hides another on the whole raster, not in the chunk). Integer rasters: NaN fill cast to int is non-zero and acts as a target (counterexample). |
| C43 A null value that fits the dtype is kept | partial | `Nulls.ScalarModel` | `reconcile_nullvalue_with_dtype` | case analysis | Proved for NumPy 1. For NumPy 2 the exact condition is proved and the property is false: 100 is replaced by -128 for int8. |
| C44 Null cells hold the null value, whatever the history | partial | `Nulls.RasterModel` | all operations on null values | invariant, induction over histories | Any history; set_null, set_null_value and burn_mask on boolean rasters only if the null value is True (counterexample otherwise), astype with a new null value as in C17. |
| C45 Quadrants partition the raster | proved | `Grid` | `to_quadrants` | index arithmetic |  |
| C46 Band selection | proved | `Bands` | `get_bands` | list lemmas |  |
| C47 band_concat keeps bands and marks nulls | proved | `Bands` | `band_concat` | list induction | Inputs on one grid. |
| C48 map_blocks and map_overlap equal one evaluation over the whole raster | partial | `Blocks` | `map_blocks`, `map_overlap`, the wrapper, null value resolution | locality of the function; chunk-local neighbourhoods equal global ones | All but the last sentence is proved. A function that names out_null_value with return_mask=True raises KeyError unless dtype, meta or null_value is given (counterexample). dask is modelled by its documented effect; the null value is a value of the raster's dtype. |
| C49 Block infos of overlapping blocks describe the blocks | partial | `Blocks.Geo` | `_resolve_gbi_with_overlap_pad`, `_ensure_chunks_for_overlap` | integer arithmetic on top of C35 | Proved for equal depths on both sides, for every block with a boundary and blocks away from the edges without one; C49_exact_iff says exactly when it holds. Counterexamples: an asymmetric depth, and the first block without a boundary. |
| C50 Aspect is the downhill direction | partial | `Surface` | `_aspect`, `aspect` | `Complex.arg` as arctan2 | Proved for square cells with rows from north to south. Counterexamples: rows from south to north (which only a ready-made xarray Dataset can have, as other inputs are flipped), and cells that are not square (aspect ignores the resolution). |
| C51 3D surface area is the area of the triangulated surface | partial | `Surface` | `_surface_area_3d` | Heron against cross products | Proved for square cells and all elevations. For other cells the code uses the cell width for both sides (counterexample). |
| C52 Northing and easting are the components of the downhill direction | partial | `Surface` | `_northing_easting`, `northing`, `easting` | trigonometry | Proved for square cells with rows from north to south where the plane is not level. Level cells get the direction of one degree west of north (counterexample). |
| C53 Surface results are null exactly where there is no value | partial | `Surface` | `_finalize`, `_set_null_255` | case analysis per cell | Which cells are null is proved for all but hillshade. The rest is false: cells beside a null cell hold NaN and are not null, and hillshade makes cells of brightness 255 null (counterexamples). |
| C54 vec[i] is feature i and iteration visits all features | partial | `Vector` | `Vector.__getitem__`, `Vector.__init__`, `open_vectors` for one layer | filtering a numbered table, induction over the loop | Holds for vectors whose index is 0..n-1 and whose size is right, as for opened files and single features; for other index values vec[i] raises KeyError or gives another feature (C54_other_index). |
| C55 Local statistics combine the valid bands of each cell | partial | `Reduce` | `local_stats`, `_local`, `_get_unique_dtype`, `get_raster(null_to_nan)`, the outer join of `xr.Dataset` | statistics that ignore NaN see the valid bands; band numbers from C38 | Proved for rasters with a null value and any number of bands, and for single bands without one. Without a null value and with more bands the result keeps all bands, filled with NaN (C55_unmasked_bands). minband and maxband need a value that is not infinite; otherwise a null band can come out. The statistics are parameters that ignore NaN (C38). |
| C56 Aggregation summarises exactly the cells of each window | proved | `Reduce` | `aggregate`, `_coarsen_chunk`, `_get_coarsen_dtype`, xarray's `coarsen` as trim, reshape and reduce | index arithmetic of the C-order reshape; blocks partition the cells; sums of evenly spaced coordinates | All windows that fit, all statistics as functions that ignore NaN, stored in the dtype of the result; evenly spaced coordinates over any field. An undefined mode counts as 0 (part of the statement; C56_mode_of_nan). numpy's and xarray's own statistics are parameters. |
| C57 Model predictions do not depend on chunks | proved | `Reduce` | `model_predict_raster`, `_pred_raster` | index arithmetic of moveaxis and reshape, both ways | Every chunking, every row-wise model. NaN and infinite values reach the model as 0 and the largest numbers (part of the statement). |
| C58 Dilation and erosion take the extreme of the window | proved | `Morph` | `dilate`, `erode`, `_erosion_or_dilation_filter`, `_get_footprint`, `_get_fill`; scipy's grey and binary operations as the extreme, any or all over a rectangle with its origin | the margin of the blocks holds every rectangle; a fold that keeps the better value is an extreme; the fill value never wins over a valid value | Every size and chunking. Rasters without a null value get the default null value, which may occur as a valid value (witness); an infinite value next to the edge or a null cell is replaced by the limit of the dtype (witness outside the stated domain). bool rasters raise an error. |
| C59 Dilation and erosion are adjoint; opening and closing bound the raster | partial | `Morph` | the same | the windows are reflections of each other | Adjunction and opening in full. The closing is shown to be not smaller where it is valid, and its null cells are determined exactly; it is null near the edges although the raster is valid there, also for rasters without a null value (counterexample), so the last sentence is false of the code. |
| C60 A raster has the values of the xarray object it is made from | partial | `Build` | `normalize_xarray_data`, `is_strictly_increasing`/`decreasing`, `_try_to_get_null_value_xarray`, `_dataarray_input_to_raster_ds`, `_dataset_to_raster_ds`; DataArrays as named dimensions with values by named indices | renaming is injective on the dimensions, so each new index reads the old one; reversal of indices and coordinates together | Proved for DataArrays and for Datasets that have to be normalised, given that the search for spatial dimensions (rioxarray, odc-geo) finds dimensions called y and x. Counterexamples: a Dataset in the standard form keeps rows from south to north, and `_FillValue = None` makes NaN valid for objects in memory only. |
| C61 Rasters made like a template hold the value asked for | partial | `Create` | `creation.py` (all but the chunks), `data_to_raster_like` with `burn` | case analysis of templates, values, dtypes and bands; the promotion of equal dtypes | Proved in full without copy_mask, and with it if a dtype is given or the value has the dtype of the template. Otherwise the dtype is promoted with the null value of the template (counterexample). The value may equal the null value (witness). Random and uninitialised data are parameters. |
| C62 Reductions of a raster see exactly the cells that are not null, however the raster is chunked | proved | `Whole` | `_ReductionsMixin`, `dask_nanmin`, `dask_nanmax`, `_handle_empty`; dask's tree reduction for any block sizes, numbers of rounds and group sizes | one lemma on trees (combining combined parts is combining all at once); extremes are determined by membership, sums by permutation | All chunkings and all trees of combination. Sums are exact (no rounding, no integer overflow); dask's reduction is modelled by its documented tree. prod, std and var are numpy's and dask's own and are left out. |
| C63 Saving a raster and opening the file gives the raster back | partial | `Files` | `save`, `write_raster` (all but the options), `open_raster_from_path_or_url`, `normalize_null_value`; GDAL as a structure with laws | cases of the dtype; reuses C16, C17 and C44 for booleans | Proved if no valid cell holds the null value (not needed for booleans), a raster without null value has no NaN, values of int64 rasters that are written as float64 are doubles, and a uint64 null value is at most 2^53. Each of these is needed (counterexamples; the last one for a GDAL that keeps no more than io.py says). GDAL, rasterio and rioxarray are parameters with the stated laws; grid and CRS are left out. |
| C64 The files of save_chunks have different names that sort like the chunks | proved | `Files` | the names of `save_chunks`, with Python's zero padding by `Nat.toDigits` | padding gives digits in fixed places, whose order is that of the numbers; texts of equal length compare place by place | All prefixes, extensions and numbers of chunks. What a chunk raster holds is C21; the extension for a driver is rasterio's. |
| C65 Automatic overviews stop before they get too small | proved | `Files` | `_auto_overview_factors` | induction on the loop | All sizes, for all drivers but COG, which builds its own. The division min(h, w) / f is exact, as f is a power of two. |
| C66 Extracted points hold the value of the cell they are in | proved | `Extract` | `extract_points_eager`, `_get_points_data`, `_get_delayed_dataframes`: rows and columns by index, masks, NaN, index and column names | reuses C20 (the cell of a point) and C22 (points of a raster) | All rasters with an invertible affine. The conversion to double is a parameter, so integers beyond 2^53 may be rounded by it. An empty set of points, for which dask may raise an error, and the partitions of the result are left out. |
| C67 Polygons cover exactly the cells of their value | partial | `Polygons` | `to_polygons`, `_shapes_delayed`, `_get_rio_shapes_dtype`; `shapes` as a parameter, `dissolve` as grouping by value | reuses C21 (chunks partition the cells); a cell of a chunk is drawn where the cell of the raster is; conversion and back keeps values that fit | Proved if the values fit rasterio's types (int32 for 64 bit and uint32 rasters, single precision for doubles) and none is NaN. Otherwise different values share a row and NaN cells are left out (counterexamples). rasterio's shapes is a parameter with two laws (groups are of one value; every cell is in a group); a geometry is the region of its cells. |
| C68 Line lengths do not depend on how the work is divided | partial | `Lines` | `line_stats.py` but for the counting of vertices; overlay, clip, explode and the mask of touched cells as parameters | batches concatenate to the whole; grouping and scattering add up per cell; the box of a block holds the surroundings of each of its cells | Proved without a weighting field and with one called "weights"; any other name raises an AttributeError as soon as a feature is near (a call of rename without columns=). shapely, geopandas and rasterio are parameters with three laws (clipping, parts, touched cells); the law on touched cells is an approximation of what polygons in place of circles do. Lengths are exact numbers. A radius larger than the raster is refused. |
| C69 Batch scripts are run line by line | partial | `Batch` | all of `batch.py` | splitting and stripping determine the parts of a line; the loop is related to an inductive description of runs | The scripts that succeed and their results are determined exactly. ARITHMETIC, EXTRACTBAND, REMAP and SETNULL fail for every input, and the argument of OPENRASTER is not stripped (both proved), so the statement is false of the code for these. What the operations do to rasters, the file system and Python's float and int are parameters; only blanks of ASCII are stripped. |
| C70 The topographic position index compares a cell with its annulus | partial | `Tpi` | `tpi` on top of the models of `focal`, element-wise operations, `astype` and `set_null_value` | reuses C14, C17, C29 and C30; the values under the window are a permutation of those in the annulus | Proved for all rasters with a null value, and for those without one where the annulus has a cell; otherwise NaN is converted to int32 and the cell is valid (counterexample). Arithmetic is exact, values are finite and the result lies between -2^31 and 2^31. Negative values are not rounded as positive ones are (witness), as documented. |
| C71 Cost distance on rasters: nulls, least costs, ways back and allocation | partial | `CostRaster` | `cost_distance_analysis` and `_normalize_raster_data` on top of the model of the search | the input of the search describes the landscape of the rasters, so paths and trails are the same; then C05, C06 and C07 | Proved for all costs and elevations whose nulls can be replaced by -1 and -9999, finite elevations other than -9999, and sources whose values fit into int64. The statement is false of the code otherwise: valid elevations of -9999 are taken for null, null elevations in float16 are crossed, a source in a cell of negative cost is valid (counterexamples), and with NumPy 2 unsigned costs with a null value are rejected. A valid distance can equal the null value. Distances are exact; the square root is any nonnegative function. |
| C72 Proximity, allocation and direction rasters report real, nearest sources | partial | `ProxRaster` | `_proximity_analysis`, `_proximity_analysis_chunk`, `_validate_lonlat_coords`, `_direction`, `get_raster(null_to_nan)` on top of the model of the sweep | the targets of the prepared data are the sources of the raster; then C09, C41 and C42 for the whole raster and for chunks | That every report is of a real source in reach, and that sources report themselves, is proved for every metric; nearest sources and independence of the chunks for the city block and chessboard metrics on regular grids (false for the Euclidean one, C41). Needed: conversions to float change no value; the null value of bool, int8, uint8 and float16 rasters is not a target value (counterexample: null cells become sources); no reported value equals the default null value (counterexample: allocations of 255 or True are lost); the margin of integer rasters is no source (counterexample). Distances longer than a side but shorter than the diagonal are refused (counterexample). Square root, angle and great circle are parameters; distances are exact. |
| C73 Element-wise operations pair cells by place and arrays by broadcasting | proved | `Pair` | `_normalize_ufunc_other` and `_apply_ufunc` with the alignment of xarray and the broadcasting of NumPy | the labels of the result are common, so each cell of it has a cell in both operands; then C14; case analysis of shapes | xarray's inner join (with the order of the first), the refusal of in-place operations on different coordinates and NumPy's broadcasting are modelled explicitly. Functions with two results are accepted only if a raster has a null value (C14). The type checks of __array_ufunc__ and the CRS, which is never compared, are left out. |
| C74 Bandwise operations give each band its value | partial | `Pair` | `_normalize_bandwise_other` and the operation of the adapter | a column of values stretches to the raster; then C73 | The accepted arrays and the results are determined exactly. A list with one value per band is refused if the raster is one column wide or has as many columns as bands (counterexample), so the statement is false of the code there. |
| C75 Grids are compared and combined correctly for stacks and mosaics | partial | `Boxes` | all of `_grids.py`; the choice of the destination grid in `stack_bands` and `mosaic`; `GeoBox.from_bbox(tight=True)` | bounds of a grid are reached by its points; sides of merged bounds are attained; on a lattice bounds and numbers of pixels are integers | Exact for grids on one lattice of square pixels that have a common cell. In general the union is proved to cover all grids up to 1/50 of a pixel, and union and intersection to exceed the grids by less than two pixels. The statement is false of the code: grids taken for the same can be pixels apart (the tolerance applies to the pixel size and to the longer side), grids that touch have an intersection that one of them lacks, pixels that are not square become square, and the resolution of the first grid is used in the units of another CRS (counterexamples). odc-geo's from_bbox, zoom_to and extent are modelled explicitly; its change of a grid's CRS is a parameter. Numbers are exact. |
| C76 The table of zonal statistics has the right rows, columns and cells | partial | `ZonalTable` | `zonal_stats`, `_zonal_stats`, `_melt_part`, `_find_problem_stats`, `_raster_to_series`, on top of the model of the counting statistics | the groups are permutations of the values of the cells of a zone; selecting columns by label restores the order; the sorted long table is the only sorted arrangement of its rows; a single feature gives at most one row | The wide format is proved in full. The statement is false of the code as to the rest: the long format orders bands as text (band 10 before band 2) and keeps the row numbers from before sorting, a feature raster in other chunks than dask would choose is refused if the data have several bands, the position of a feature raster is not compared, and features whose zone is the null value (index -1) have no row (counterexamples). Statistics are parameters that do not depend on the order of the values (those of the library: C32); repeated names are not modelled; the raster of the features is that of C33 with method 'last'. groupby's keys are ascending and not NaN, join and concat of tables go by zone and by row. |
| C77 Remap files are read line by line into a mapping | partial | `RemapFile` | `_INT_OR_FLOAT_RE`, `_REMAPPING_LINE_PATTERN`, `_str_to_float_or_int`, `_parse_ascii_remap_file`, `_get_remapping`; regular expressions as functions to all ways to match | each pattern matches the texts of a language, by combination; neither colons nor blanks occur in numbers, so the groups are determined by the line; stripping keeps the form | Which lines and files are read, and as what, is proved in full, for the backtracking regular expression as it is written. The statement is false of the code as to the error for a sign or an exponent in the place of a number, as in '-:5' (counterexample): the regular expression accepts it, and int or float raises a bare ValueError. ASCII only; the digits of an int are not limited; the rounding of decimals to floats is a parameter. |
| C78 model_predict_vector appends the predictions and keeps the rest | partial | `PredictVector` | `model_predict_vector`, `_pred_df`; assignment to selected rows with NumPy's broadcasting | the k-th valid row takes the k-th row of the result; names of new columns are distinct as decimal numbers are | The rows are proved in full for models that take any number of rows. The statement is false of the code in two ways (proved for all tables): a model with a single output fills all n_outputs columns without an error (and one with a single row all rows), and for a partition without a valid row the model is called with no rows, so a model that refuses that (those of scikit-learn do) fails or not depending on the partitions. The model is a parameter; predictions are not rounded to float64; vectors without a table are left out. |
| C79 reproject puts what the resampling makes of the valid cells on the destination grid | partial | `Warp` | `reproject` with `dataarray_to_xr_raster_ds`; `to_crs`, `zoom_to` and the resampling as parameters | the values that are not nodata are the valid cells; then the orientation of C60; the mask is read off the result | Proved for rasters without valid cells that hold the null value and resolutions that are numbers, where no resampled value is the null value of the result. The statement is false of the code for a tuple as the resolution, which raises a TypeError, and for rasters without a null value: they get the default one, and cells that hold it (255 in uint8) become null or change (both proved for all rasters). A geobox with rows from south to north is turned. odc-geo's change of grids and GDAL's resampling are parameters; boolean rasters are left out. |
| C80 data_to_raster puts each element of the arrays at its coordinates | partial | `FromData` | `normalize_data`, `data_to_xr_raster`, `data_to_xr_raster_ds`, `data_to_raster` and the variants with a template; `build_coords` | case analysis of arguments; data and mask are turned alike, so the position of an element is the same in both | The cells and the accepted arguments are proved in full. The statement is false of the code for coordinates in lists, which are documented: x raises a TypeError, and y, which is never checked, an AttributeError (proved for all arrays). Coordinates are exact; the dtype of burned data is taken to be that of the data; match_band_dim of data_to_xr_raster_like, chunks and the CRS are left out. |
| C81 open_dataset makes a raster of each variable with its values at their coordinates | partial | `OpenDataset` | `open_dataset`, `_get_valid_variables`, `_build_raster`, `_get_affine` on top of `data_to_raster` and `set_null_value`; xarray's `squeeze`, rioxarray's `transform` | named indices of the variable are those of the cube; the affine of equally spaced coordinates gives them back; then C80 and C16 | Proved for variables whose dimensions are in the order band, rows, columns, on equally spaced coordinates without a stored transform, and, if no null value (or NaN) is stated, for elements other than the default null value. The statement is false of the code otherwise: dimensions are not transposed, a variable with one row or column is refused, uneven coordinates are replaced by even ones, the default null value becomes null (uint8 255), and variables with fewer than two dimensions are an error even if such errors are to be ignored (all proved, the uneven and the default case by counterexample). What xarray and rioxarray read is a parameter; rioxarray's transform is modelled for at least two rows and columns. |
| C82 open_vectors opens exactly the layers asked for | partial | `Layers` | `open_vectors`, `_normalize_layers_arg`, `count_layer_features`, `get_vector`, `save`; OGR's lookup of layers, the readers as parameters | case analysis of the argument; distinct names determine the layer; then C39 for the sizes | Proved for layers with different names that all have features; the errors without conditions. The statement is false of the code otherwise: layers go by name even for None, so a name that repeats gives the first layer twice; a layer without features is an error of the reader without pyogrio (both by counterexample); and save into a file with other layers returns a list of all layers (proved in general). dgpd.read_file and OGR are parameters that are asked to number the features; GDAL's writing keeps the other layers. |
| C83 Vectors made from a vector keep its features | partial | `Layers` | `copy`, `to_crs`, `cast_field`, `buffer`, `simplify`, `load`, `spatial_shuffle`, `calculate_spatial_partitions`; dask's `map_partitions` and `from_pandas` | maps of rows keep index and divisions; then C39 for the sizes | Proved for vectors with consecutive index values, and for load with index values in order. The statement is false of the code otherwise: buffer and simplify drop all attributes (proved for all vectors); to_crs of a vector whose index has gaps, such as a selection of rows, raises a ValueError (proved for all such pairs of rows); spatial_shuffle gives a wrong size and frames in memory that are not in the order of their index are sorted (counterexamples). Geometry and dask_geopandas' shuffle are parameters; frames without rows and the cast of the geometry are left out. |
| C84 Blocks of geo_map_blocks and geo_map_overlap carry the coordinates of their cells | partial | `GeoBlocks` | `geo_map_blocks`, `geo_map_overlap`, `_build_geo_wrapper`, `to_dataarray`, the lookup of block infos, on top of the models of `map_blocks`, `map_overlap`, block infos and `are_all_grids_same` | the info looked up is that of the chunk; its window is that of the block moved by half the difference of the margins (C49, C35); then the views of C48 | geo_map_blocks is proved in full as to y and x, and geo_map_overlap for depths of 0 and for equal depths on both sides with a boundary; C84_displaced says for all depths by how many cells the coordinates are off. The statement is false of the code otherwise: without a boundary, or with asymmetric depths, the coordinates of blocks are off, and the result depends on the chunks (counterexamples). The bands of blocks are labelled from 0, though those of rasters are numbered from 1 (counterexample). Grids may differ by the tolerance of C75. Exact numbers, straight grids; the checks of keyword arguments are left out. |
| C85 pad covers the target and keeps the grid | partial | `PadBox` | `_resolve_bounds`, `Raster.affine` and `bounds`, `pad`; rioxarray's `resolution` and `pad_box`, numpy's `arange`, odc-geo's `boundingbox`; the cells are those of C24 | the coordinates of `arange` are lines through the grid, with as many cells as the ceiling says; rows from columns by negation; then C24 | C85_grid says for every target which rows and columns the result has. C85_extent_partial proves the extent for the sides of the target that are edges of cells of the raster's grid; C85_half bounds what is missing otherwise by half a cell. The statement is false of the code for other sides: a target that ends in the first half of a cell, or in its middle, is not covered (counterexample). Exact numbers; rioxarray's pad_box is modelled. |
| C86 The grid of an aggregated raster | partial | `Coarse` | coordinates and transform of `aggregate`, the rewriting of the transform in `normalize_xarray_data`; xarray's `coarsen` of coordinates, rioxarray's `resolution` and `transform` | means of evenly spaced coordinates (C56); the scale of a line of at least two coordinates | Proved in full for results with at least two rows and two columns; the coordinates are proved for all. The statement is false of the code for results with a single row or column: they have the resolution of the raster that was aggregated, or (1, 1) (proved for all such rasters), so affine, bounds, xy and index are wrong. Exact numbers; rioxarray's resolution and transform are modelled, and whether xr.where keeps attributes is a parameter. |
| C87 Great circle distance | partial | `GreatCircle` | `_haversine_dist_sqr`, `_validate_lonlat_coords`, `_estimate_min_resolution` and the overlap, over the real numbers; on top of the models of the sweep and of what a chunk sees | half-angle formulas turn `h` into the inner product of unit vectors; the angle grows when the product falls; a chunk without targets in view is null by C09; an invariant of the sweep keeps candidates on their side of a far column | The distance and the check of the coordinates are proved for all coordinates, over the real numbers with the trigonometric functions of Mathlib. The overlap is proved to be enough rows for all evenly spaced latitudes, and enough columns for rasters that reach no further south than north and whose top row is nearly straight. The statement is false of the code otherwise, by counterexamples in which a cell within max_distance of the source is null: wide rasters near the pole (C87_bent), rasters in the south (C87_south), and rasters around the globe, even in one chunk (C87_around; C87_seam says in general that the sweep never crosses the end of the raster). Rasters with one row or column raise an error (C87_single). Rounding is not modelled. |
| C88 Mosaic of rasters | partial | `MosaicRaster` | `mosaic`, `_mosaic`, `_build_empty_raster_from_grid` on top of the models of the mosaic at a cell (C10, C11), of `reproject` (C79) and of `astype` (C17); `combine_grids` and `grids_close` as parameters | the data of a converted source is its valid value or the null value, so the columns of values are the encoded inputs of C10 and C11; minimum and maximum of integers as exact numbers need the fill value to be neutral within the limits of the dtype | C88_mosaic_partial proves the statement for all lists of rasters whose null values are that of the result or not close to it, if that fits the dtype; valid cells that hold the null value of the result do not count (C10). The statement is false of the code otherwise: with NaN as null value of the result, null cells of rasters with another null value become valid cells with the default null value of the dtype and hide valid cells (C88_nan, for all such rasters); so do null cells of rasters whose null value is close to that of the result (C88_close); booleans raise an error for 'min' and 'max' (C88_boolean); rasters with NaN cannot be converted to integers without a null_value (C88_nan_integer). 'sum' is proved for fewer than seven rasters (C88_sum_partial; see C12 for more). combine_grids, grids_close and the resampling are parameters. |
| C89 Rounding keeps nulls and gives the nearest multiple | partial | `Round` | `Raster.round`; NumPy's `rint` and `round` over exact numbers | the nearest integer by cases on the fraction, scaled by the power of ten; the specification has one solution, so idempotence and order follow from it alone | Mask, null value and null cells are proved in full; the values where the rounded number is a number of the dtype, which all are for exact floats, and for integers with decimals >= 0. The statement is false of the code for integers and negative decimals otherwise: 255 in uint8 rounded to tens is no multiple as near (C89_wraps, for any conversion to uint8). A valid cell may be rounded to the null value and then be valid in the mask but null in a saved file (C89_becomes_null_value). Booleans are left out. |
| C90 Polygons of a raster rasterize to the raster | partial | `Trips/Polygons` | `to_polygons` and `rasterize` after each other, both as modelled for C67 and C33 | the centre of a cell lies in that cell only, so the polygons that touch it are those of its value; there is one or none; then C33 | Proved on top of C67 and C33: for values rasterio can work with (C67), chunks with at least two rows and columns, and a null value of the result that no cell holds. The statement is false of the code otherwise: without null_value cells that hold the default null value of the dtype become null (C90_default_lost), and see C67 and C33 for 64 bit values. Geometry is a parameter: a polygon is burned into the cells whose centre it covers. |
| C91 Cost distance over constant costs | proved | `Trips/Costs` | `cost_distance_analysis` as modelled for C71, applied to constant costs | no step is shorter than the difference of the distances of its ends, as the formula is a norm (a maximum of two linear forms for 8 neighbours); and one can always step toward the source by exactly that difference | Proved on top of C71 for all rasters, constants and sources that C71 covers. The square root is a parameter; it must be exact on the squares of the two cell sizes, and for 8 neighbours the diagonal must be at least as long as either side and at most as long as both together. Exact numbers. |
| C92 Zonal statistics of regions | partial | `Trips/Patches` | `regions` and `zonal_stats` after each other, as modelled for C28 and C76 | labels are equal for cells of a patch only, so the column of a zone has one value; the labels are consistent with their null value if that is no label | Proved on top of C28 and C76 for rasters whose null value, converted to uint64 for the labels, is not a label of a cell; C92_null_value says that any but the numbers from 0 to the number of cells will do. The statement is false of the code otherwise: the result of regions inherits the null value of the raster, and a patch whose label is that number is missing in the table (C92_lost for all rasters, C92_label_is_null_value for a row 7, null, 7 with null value 1). The labelling of a binary image is a parameter with the laws of scipy's label; statistics are any functions that do not depend on the order of values. |
| C93 Totals are kept by aggregation | partial | `Trips/Aggregates` | `aggregate` and `raster.sum/max/min/mean` after each other, as modelled for C56 and C62 | the windows are a partition of the cells (C56), so the sum over the cells is the sum over windows of the sum in each; null windows have no valid cells and add nothing | Proved on top of C56 and C62. Maximum and minimum without restriction other than that the dtype of the result holds the values. Sum and mean if the dtype of the result holds the sums and means of the windows. The sum is false of the code otherwise: 8 bit rasters with a null value are summed as float16, and nine cells of 255 become 2296 (C93_half_precision; the only laws used are that 255 is a float16 and that 2295 is rounded to 2296). Statistics are parameters with the laws of sum, max, min and mean on finite lists. |
| C94 Terrain seen from the other side | partial | `Trips/Symmetry` | `slope`, `aspect`, `curvature`, `surface_area_3d`, `hillshade` as modelled for C37 and C50 to C53, applied to two rasters | the surroundings of a cell are those of its image, rearranged; each formula is checked on rearranged surroundings; an angle between 0 and 360 degrees is determined by its sine and cosine, so directions follow from the two differences | Proved for all rasters and cells over real numbers with NaN, for any chunks of both rasters. The area is transposed for square cells only; it is false of the code for others, as surface_area_3d takes both sides of a cell to be its width (C94_transposed_area: 4 and 1 for a level surface with cells of 2 by 1 units). |
| C95 A float null value that fits a float dtype is kept | partial | `Nulls/ScalarModel` | `reconcile_nullvalue_with_dtype` as for C18 and C43, now for floating point numbers and types | `np.min_scalar_type` of floats by its ranges and `np.can_cast` by its table give the condition; the comparison with the limits of float32 and float64 decides nothing, since no integer type holds numbers near them; rounding may not carry a number over the end of a range (`KeepsRange`) | The exact condition for both casting rules. False: float32's largest and lowest number are replaced by -999999 (both NumPy versions); with NumPy 2 so is -99999, and 2049.5 becomes 2050, for it is rounded to float16 first. |
| C96 Functions that pass values on keep null cells apart | partial | `Trips/Selections` | `get_bands`, `set_null`, `pad`, `dilate`, `erode`, `clip`, `erase`, `mask` and `save` after each other, as modelled for C46, C15, C24, C58, C34 and C63 | `PassesOn` is reflexive and transitive and holds for each function; what it needs of the raster (null value, bounds of values) is passed on as well, so induction over the sequence; the file is that of the raster with null outside of its cells, to which C63 applies | Proved on top of C46, C15, C24, C58, C34 and C63 for rasters that are not boolean and have a null value that their dtype represents; the file also not for int64 and for large null values of uint64 (see C63). False of the code without a null value: set_null gives the raster the default null value, which other cells may hold (C96_default_null). False for 'mode': aggregate uses the default null value of the dtype whatever that of the raster is, and windows where that number is the most frequent one are null in the file (C96_mode). |
| C97 Zones add up to the raster | proved | `Trips/Zones` | the table of `zonal_stats` (C76) and the reductions of a raster (C62) | the zones of the table are distinct and are those that occur, so a sum over zones of sums over their cells is one over the cells in zones; the least number lies in some zone, whose minimum it is | On top of C76 and C62, in exact arithmetic. The statistics of a group are those of pandas by their specification (NaN left out); valid cells hold numbers that float64 represents; masks are those of the null values, as for C76. |
| C98 Functions of windows agree | proved | `Trips/Windows` | `dilate`, `erode` (C58), `focal` (C29, C30) and `correlate` (C31) on the same raster | the window of the dilation is the rectangle on the cell, and with odd sides that of the erosion too; extreme values of the same set are equal; the sum over the cells under the window is the sum over its weights | On top of C58, C29, C30 and C31. Values that are not null are finite numbers that the floating point type of focal represents and that lie within the limits of the dtype (as for C58); the maximum, minimum and sum of a list are given by their specifications. Odd sides are needed for the minimum: for two columns focal takes the right neighbour and erode the left one (C98_even). |
| C99 A mosaic by extremes is the local statistic of the stack | partial | `Trips/Stacks` | `mosaic` (C88), `band_concat` (C47) and `local_stats` (C55) on the same rasters | both results are extremes of the same set of numbers, those of the rasters that are valid at the cell | On top of C88, C47 and C55, with the restrictions of C88 on null values; the values are exact in the dtypes involved. Needed: one raster at least has a null value, and no valid cell holds the null value of the mosaic. False of the code otherwise: such a cell is null in the mosaic only (C99_null_value_held), and without null values the statistic has as many bands as the stack (C99_without_null_value, see C55). |
| C100 Versions of NumPy and dask are ordered as releases | partial | `Versions` | `version_to_tuple`, the flags of `_compat.py` and the choice of the keyword in `zonal.py`, with `int()` and `<` of tuples | the digits of a number are read back as the number; a tuple that is at least as long as the bound is less than it exactly if it is with zeros appended; a character that `int()` does not take is in one of the parts | Proved for releases written with at least as many numbers as the bound. False of the code otherwise: any version with a letter or another character that int() does not take, such as a release candidate, a development version or a local build, is a ValueError (C100_letters), so that the package cannot be imported with it; a version written with fewer numbers that agree with the bound counts as older (C100_short). Digits and blanks other than those of ASCII, which int() takes as well, are left out. |
| C101 Aggregating twice | partial | `Trips/Twice` | `aggregate` (C56) applied twice and once | the cells of a large window are those of the small windows in it; sums are regrouped, and the extreme of the extremes is the extreme | On top of C56, for finite numbers that the dtypes of the results hold. Proved for 'sum', 'max' and 'min', and for 'mean' without null cells. False of means beside null cells (C101_mean_nulls). The raster need not be a multiple of the windows. |
| C102 Points of a raster rasterize to the raster | partial | `Trips/Points` | `to_points` (C22) and `rasterize` (C33) after each other | the points of a band are the centres of its valid cells, one each, so every valid cell is touched by one point and a null cell by none | On top of C22 and C33, with the conditions of C33; a point is burned into the cell that it is in. Proved for a projected CRS (with a geographic one to_points raises, C22) if no cell holds the null value of the result; false otherwise, e.g. for the default null value of the dtype (C102_default_lost). Valid NaN cells come back with 'first' and 'last'. |
| C103 Remapping by ranges of one number is reclassification | proved | `Trips/Tables` | `remap_range` (C25) and `reclassify` (C26) with the same table | a whole number lies in the range from k to k + 1 exactly if it is k; both functions choose the dtype and the null value alike | On top of C25 and C26; the conversions of the numbers involved are exact and the new values have a common dtype. C103_fractions shows that whole numbers are needed. |
| C104 Clipping to a box keeps the cells that meet the box | proved | `ClipBox` | the window of rioxarray's `clip_box` in front of the model of C34 | floor and ceiling of the sides in pixels against the edges of the cells; the filter of a range is a range | On top of C34. The window of rioxarray's clip_box (from_bounds and isel_window) is modelled in exact arithmetic; what auto_expand does about fewer than two rows or columns is a parameter. |
| C105 Padding and clipping back changes nothing | proved | `ClipBox` | `pad` (C24, C85), `Raster.bounds` and `clip_box` (C104) after each other | the old bounds lie a whole number of cells inside the padded raster, so the cells that meet them are the old ones | On top of C24, C85 and C104. Without null value and fill, pad sets the default null value, which stays. |
| C106 Kernels with a single one move the raster, windows of one cell leave it alone | proved | `Trips/Single` | `correlate`, `convolve` (C31) and `focal` (C29, C30) with kernels and windows of a single cell | a sum with one weight that is not zero is one term; inside the raster every boundary mode reads the cell itself; the window holds one value | On top of C29, C30 and C31. The numbers of the raster are finite and survive the conversion to the floating point type in use, zero too, and the chunks cover the raster (as for C31). focal is treated for rasters with a null value, also with a window of any shape that has a single cell; the statistic is any that ignores NaN and gives back a single number (not the count of unique values). |
| C107 Keyword arguments of the block functions reach the function as given | proved | `Kwargs` | the checks at the top of the four block functions of `blocks.py`, the dict of keyword arguments that the wrappers build, and `_pack_data_mask` | the lists of names against the documented names; setting the items of a dict one after another | dask is taken to hand the keyword arguments that are not its own options to the wrapper as they are. What the extras are is the subject of C48, C49 and C84. |
| C108 Pieces of a raster put together are the raster | proved | `Trips/Pieces` | `to_quadrants` (C45), `get_chunk_rasters` (C21) and `mosaic` (C88) after each other | a piece on the grid of the whole has the cells of its window and null elsewhere; all candidates for a cell are null or the cell itself, so every choice is the cell | On top of C79 and C88. The nearest neighbour on a grid whose pixels are pixels of the destination is the pixel at the same coordinates (a law for GDAL), and grids_close tells a part from the whole. Pieces have a grid, which rioxarray finds only for two or more rows and columns. The grid of the mosaic is the raster's, given or as the union. |
| C109 Masks and boxes one after another | proved | `Trips/Clips` | `mask`, `clip` (C34) and `clip_box` (C104) applied to each other's results | what is kept of what was kept; filters of filters of the coordinates | On top of C34 and C104, with their conditions: rasterio's laws for burned features, chunks of two or more rows and columns (otherwise nothing is returned, C34_single_row_chunk), boxes that meet two rows and columns. |
| C110 Expressions of rasters are worked out cell by cell | proved | `Trips/Expressions` | trees of the element-wise operations of C14 and C73, worked out operation by operation | induction on the tree: the result of each part is described in terms of the rasters of the part only; sublists of a list without duplicates are determined by their members | On top of C14 and C73, by induction on the expression. The ufuncs (type resolution and values) are parameters. Numbers are scalars; arrays and bandwise operands are the subject of C73 and C74. That expressions with null values on different grids fail is C73_accepted. |
| C111 where obeys the laws of choosing | proved | `Trips/Choices` | `where` (C27) with `~`, `&`, `|` (C14), `set_null` (C15) and `to_null_mask` applied to each other's results | both sides cell by cell; for the swap, the two results as whole, with the rules for the null value being symmetric | On top of C14, C15 and C27. The swap needs no conditions on the operands. The other laws are stated for operands whose values the dtype of the result holds and which do not include the null value in use (otherwise valid cells become null, C27_scalar_lost). Where d is null both sides of the and/or laws are given too: they differ where c decides alone. All rasters have one shape. |
| C112 The statistics of variety fit together | proved | `Trips/Variety` | `nan_unique_count_jit`, `nanasm_jit`, `nanentropy_jit` and `nanmode_jit` (C38) on the same values, and `aggregate` (C56) with two of them | all four in terms of the shares of the values, which sum to one: the inequalities of Cauchy and Schwarz, of Gibbs, and log t ≤ t - 1 | On top of C38 and C56. Arithmetic is exact, the logarithm that of the real numbers; in the aggregated rasters the moment is rounded to the dtype at the end, and the dtypes of the counts are assumed to hold the counts. C29, C55 and C76 say that focal, local_stats and zonal_stats apply the same functions. |
| C113 Cost distances behave like distances when the arguments change | proved | `Trips/Ways` | `cost_distance_analysis` on rasters (C71) called two or three times | the distances shown are least costs of paths (C71); paths of one landscape are turned into paths of another, put together and walked backwards | Arguments as in C71 (nulls that the code can tell, exact numbers); the square root is nonnegative, and monotone or homogeneous on the lengths of steps where that is needed. |
| C114 Proximity, allocation and direction speak of the same source | proved | `Trips/Nearby` | the three functions of `distance/proximity.py` (C72) on the same raster | the sweep is run with the source itself as its secondary output; the real outputs are functions of that, cell by cell and chunk by chunk, because the sweep never looks at what it reports | Requirements as in C72: values that the conversion to floats keeps, null values and margins that are not taken for sources, reports that are not the null value of the result; exact numbers. |
| C115 The ways of rasterizing agree | partial | `Trips/Burns` | `rasterize` (C33) for several tables, orders and methods on one grid, and as a mask | C33 determines every cell from the values of the touching features; reversing, permuting and appending tables does so to these lists | Needs what C33 needs: no NaN as null value (and as value for min and max), no value equal to the null value, chunks with at least two rows and columns, spatial partitions that cover their features; C33 has the counterexamples. |
| C116 Statistics of clipped rasters | partial | `Trips/Cutouts` | `mask` and `clip` (C34) followed by `sum`, `min` and `max` (C62), next to `zonal_stats` with `handle_overlap` (C76) and `get_bands` (C46) | the valid values of both parts together are a permutation of those of the raster (counted value by value); the column of a feature and the band of the masked raster have the same values apart from NaN | Needs what C34 needs (chunks with at least two rows and columns, spatial partitions that cover their features; counterexamples there); for clip the window must hold the touched cells, for zonal_stats the statistics must ignore NaN and the order; sums are exact. |
| C117 remap_range obeys the laws of ranges | proved | `Trips/Ranges` | `remap_range` (C25) with several lists of ranges, `where` (C27), comparisons and `&` (C14), `set_null` (C15) | C25 as a relation between a cell and what it becomes, which unfolds range by range; the laws are those of that relation | Conversions of the numbers involved lose nothing, and neither cells nor new values are the null value of the result (as in C25, C27); C117_split_open shows why splitting needs an end that belongs to the ranges. |
| C118 reclassify obeys the laws of dicts | proved | `Trips/Dicts` | `reclassify` (C26) with several dicts, on its own result, and with the dict that it changed | C26 as a relation between a cell and what it becomes; a dict has each key once, so the relation is a function, and the laws are those of functions | Conversions of the numbers involved lose nothing, and neither the cells that stay nor the new values are the null value of the result (as in C26). Without a null value the second call with the changed dict does differ (C26_second_call_differs). |
| C119 regions obeys the laws of components | proved | `Trips/Islands` | `regions` (C28) called twice, on rasters with other values, on its own result and after `reclassify` (C118) | C28 says which cells share a label and in which order the values are numbered; two numberings without gaps that agree in order are equal; regions of one value are numbered by `label` itself; for 8 neighbors paths stay paths and the pigeonhole principle counts | `ndm.label` is a parameter that numbers the components of an image from 1 (as in C28); unique_values without duplicates (C28 has the counterexample); overflow of the labels is not modelled; C119_reclassify needs what C118 needs. |
| C120 Terrain lifted, added and zoomed | proved | `Trips/Heights` | the functions of `surface.py` (C37, C50 to C53) on two or three rasters of elevations | each result is a function of the nine elevations around a cell (C37, chunks drop out); differences forget constants, are homogeneous and additive; the inequality is that of the triangle | Real numbers instead of floats, NaN propagates; rasters with the same grid may have different chunks. Sums are rasters whose null cells are those of either one (what C14 says of +). |
| C121 Statistics of bands in another order and in groups | proved | `Trips/Bandwise` | `local_stats` (C55) before and after `get_bands` (C46) and `band_concat` (C47) | the list of the values of a cell, with NaN or without, is permuted, repeated or cut in two; the masks depend on the set of bands only | On top of C38, C46, C47 and C55. The statistics of numpy are parameters: that they ignore the order (or repetitions) is a hypothesis, for raster_tools' own statistics it is proved. Groups are stated where the conversions keep the numbers and the partial results (else C55_half_precision), for rasters with a null value (else C55_unmasked_bands). 'minband' where no valid value is NaN or infinite (else C55_minband_null). |
| C122 Dtypes and null values changed several times | proved | `Trips/Conversions` | `astype` without new null value (C17) and `set_null_value` (C16) applied to each other's results | C16 and C17 say of each step which cells are null and what the others hold; composed cell by cell | On top of C16 and C17, with their laws of conversions (safe conversions lose nothing but for 64 bit integers that become floats; C16_uint64_loses_digits). C122_lost shows that a valid cell with the number of the null value is lost on the way. |
| C123 Predicting a raster and reading it at points is reading the raster at points and predicting the table | proved | `Trips/Forecasts` | `model_predict_raster` (C57) and `extract_points_eager` (C66) next to `extract_points_eager` and `model_predict_vector` (C78) | a point is in at most one cell (C20), so what is read is unique (C66); the row of the table is the list of predictors of that cell, or has NaN exactly if the cell is null or missing | On top of C57, C66 and C78. The conversions keep the valid values and the predictions (toF64, promotion to float); the table holds the extracted columns, in any partitions; the computed raster of predictions is on the grid of the raster. C123_nan_cells and C123_infinite_cells show that finite valid cells are needed. |
| C124 Values read at points fit together | proved | `Trips/Readings` | `extract_points_eager` (C66) called twice, after `get_bands` (C46), `band_concat` (C47), `to_quadrants` and `get_chunk_rasters` (C108) | what is read is determined by the cell that the point is in (C66, C20); the cells of selected bands, stacks and pieces are cells of the rasters at the same coordinates | On top of C66, C46, C47 and C108. Stacks where the conversion to the common dtype keeps the doubles of the valid values, for rasters on the same grid. Pieces of rasters without rotation whose coordinates are the centres of the cells, with the cell size of the raster; the affine of a piece is that of odc (not modelled). |
| C125 Calculating with rasters and reading at points is reading at points and calculating | proved | `Trips/Samples` | expressions of rasters (C110) and `extract_points_eager` (C66) | C110 gives the null cells and the values of the result at coordinates, which the rasters share; a point is in at most one cell (C20), where the numbers read are the values; the expression of numbers is defined by recursion apart from the rasters | On top of C110 and C66. Rasters with the same bands and coordinates, which give the same affine; doubles keep the valid values of the rasters; the operations of NumPy are parameters. |
| C126 Changed rasters read at points | partial | `Trips/Probes` | `extract_points_eager` (C66) after `set_null` (C15), `astype` (C17), `set_null_value` (C16), `where` (C27) and `reclassify` (C26) | a point in a cell reads the value of the cell or NaN, and any other point NaN (C66, C20); the cells of the changed raster are given by the theorem of each change | On top of C66, C15, C16, C17, C26 and C27. All rasters lie on one grid; doubles keep the valid values. For where and reclassify the conversions must keep the values, and no value may be the null value of the result: such values read NaN, because the cells become null (C27_scalar_lost, C26_reclassify). set_null_value unless 64 bit integers become floats (C16_uint64_loses_digits). |
| C127 Padded and clipped rasters read at points | proved | `Trips/Frames` | `extract_points_eager` (C66) after `pad` (C85) and `clip_box` (C104) | cells at the same coordinates are the same part of the plane, so a point is in a cell that was kept exactly if it was in that cell before; C85 and C104 say what the cells hold | On top of C66, C85 and C104, with their conditions: rasters on a regular grid without rotation, boxes that meet two rows and columns, fill values of one type that the conversions keep. The coordinates are the centres of the cells of the affine, before and after; the affine itself is that of odc (not modelled). |

## Trusted base

* The Lean 4.33.0 kernel.  No theorem uses an axiom other than `propext`, `Classical.choice` and `Quot.sound`; the last
  section lists them theorem by theorem.  There is no `sorry`, no `native_decide`, no `bv_decide`, no own axiom.
* The hand translation of the Python text into the definitions.  Each definition cites its lines.
* The simplifications named in the comments of the definitions.  The main ones:
  * arithmetic without rounding and integers without overflow (the heap, cost distance, proximity, mosaic, surface, zonal
    counts, vector sizes);
  * data types as tables: `np.can_cast`, `np.promote_types`, `np.min_scalar_type` are modelled by their documented tables,
    conversions of values by functions with stated laws (`idNumPy` is an instance used in the examples);
  * one evaluation of a dask graph gives what its documentation says, in any order;
  * numba compiles the loops to what they say, except where a cast matters (`C26_fraction_matches_integer_key`).

## Modelled code

| file | modelled | not modelled |
|------|----------|--------------|
| `distance/_heap.py` | everything | overflow of the counters |
| `distance/cost_distance.py` | `_cost_distance_analysis_core`, `cost_distance_analysis_numpy`, the move tables, `cost_distance_analysis` | rounding |
| `distance/proximity.py` | everything but | angles; rounding |
| `_mosaic.py` | `mosaic` as a whole: arguments, conversion of the sources, painting, recursion, the parallel scan | paths, chunks |
| `_grids.py` | everything | the change of a grid's CRS |
| `masking.py`, `dtypes.py` | null value reconciliation, defaults, common data types | |
| `raster.py` | element-wise operations and their alignment, null handling, `astype`, `xy`/`index`, chunk rasters and boxes, quadrants, `to_points`, `to_polygons`, band selection, construction from xarray objects and arrays, reductions | printing, plotting |
| `_stack.py`, `_padding.py` | everything but reprojection | |
| `general.py` | `band_concat`, `remap_range`, `reclassify`, `where`, `regions`, `aggregate`, `local_stats`, `model_predict_raster`, `model_predict_vector`, remap files, `dilate`, `erode` | see the last column of the list below |
| `stat_common.py` | unique counts, mode, asm, entropy, argmin, argmax | mean, standard deviation, variance, median (plain NumPy calls) |
| `focal.py` | windows, `focal`, `correlate`, `convolve` | |
| `zonal.py` | everything: the count-based statistics, the table in both formats, argument checks, `extract_points_eager` | the statistics of dask |
| `rasterize.py`, `clipping.py` | everything but GDAL and geometry | |
| `blocks.py` | depth and boundary arguments, `map_blocks`, `map_overlap`, their geo variants, block infos | checks of keyword arguments |
| `surface.py` | everything | rounding |
| `utils.py` | list reshaping, mask merging, broadcasting | |
| `line_stats.py` | everything but geometry | rounding |
| `batch.py` | everything but operations on rasters | |
| `creation.py` | everything but chunks and random numbers | |
| `io.py` | null values and values of saved and opened files, tiles and bands, overviews, `open_dataset` | GDAL, creation options, remote paths |
| `dask_utils.py` | `dask_nanmin`, `dask_nanmax` | |
| `warp.py` | everything but odc-geo and GDAL | boolean rasters |
| `vector.py` | layers, reading in batches, sizes, feature access, object ids, derived vectors | geometry, CRS |

Not modelled at all: CRS handling and shapely predicates.


## Wrong programs (`seeded/LOG.jsonl`)

Each line is one edit of a definition in a scratch copy, built with the modules of one claim. How far the log can be trusted:

- Most edits are made by scripts (an operator, a number, a branch), so they are small, and many lines concern the same definitions. Counts of lines say little.
- `killed` means that something in the named modules did not build. A proof can fail although its theorem is still true of the wrong program, so `killed` is weaker than a refutation.
- Lines whose `failed` holds only `example` were caught by a sample, not by a theorem. They were built again with all samples of the area removed (and, as a control, without the edit): three definitions needed tighter theorems (`batchSize`, `checkAsymmetric`, `objectidBase`), one edit (`initHeapData`) still fails no theorem and counts as survived. The notes say which is which.
- Edits of sample data (`exWhole`, `exOr`, `seen`, ...) are no wrong programs. They are kept because they were made, with a note.
- `survived` may mean that the edit is equivalent, or that the claim does not speak of the definition; the note says so. The same edit can then be found with the claim that does.
- Edits that do not type check are left out. An edit built again for the same claim with the same outcome replaces its older line. Until a late version the claim was not part of this rule, and lines of one claim replaced those of another; they are back.
## Disagreements between the code and its documentation, and bugs found

Where a theorem is named, the statement is proved of the model.  The others were noticed while reading.

### Distances
* Proximity with the default Euclidean metric may report a target that is not nearest (`C41_euclidean_not_nearest`).
* With the great circle metric the nearest target can be missed by half the circumference of the Earth: in a row from longitude -180 to 180 with targets in the first two of three cells, the last cell reports the second one, although it is at the place of the first (`C41_great_circle`).
* Proximity of integer rasters casts the NaN used to fill margins to an integer; chunks then see targets that do not exist
  (`C42_integer_fill_phantom_target`).
* With the Euclidean metric the result depends on the chunks even if the overlap is sufficient and the fill is no target: a target out of reach
  and outside of the overlap can keep the sweep from passing on a target that is in reach.  Three rows of 35 cells, 1 wide and 8 high, with
  `max_distance` 17: as one chunk a cell is null, with chunks of 17 columns it has the distance 17 (`C42_euclidean_depends_on_chunks`).
* Popping an empty heap reports a stale value (harmless to callers, which check the count).
* A source on a barrier keeps cost 0.  Cost distance at raster level turns null elevations into -9999 and uses them.
* The allocation mask is recovered from `data == nodata`, so sources with that value are lost.

### Mosaic
* 'sum' with seven or more rasters drops partial sums that equal the null value (`C12_sum_of_seven_loses_values`); totals
  that equal it become null (`C12_sum_equal_to_null_is_null`); valid values equal to it are skipped
  (`C10_valid_null_value_is_lost`).

### Null values and data types
* `astype` ignores a new null value that is close to the old one (`C17_close_null_ignored`), on rasters without null value
  (`C17_unmasked_null_ignored`), and NaN (`C17_nan_null_replaced`).
* `set_null_value(nan)` is a KeyError for 64-bit integers (`C16_rejected`), turns all True cells of boolean rasters null
  (`C16_boolean_nan`); `set_null_value(False)` leaves True in null cells (`C16_boolean_false`); `set_null_value(-1)` on
  uint64 loses digits (`C16_uint64_loses_digits`).
* Boolean rasters may come to have null value False, and then null cells hold True (`C44_boolean_false_null`).
* With NumPy 2 a null value that fits may be replaced (`C43_numpy2_replaces_fitting_value`).
* The lowest number of float32 (a common null value in files), given as a float64, does not survive conversion to float32: it
  becomes -999999 (`C95_largest_replaced`).  With NumPy 2 so do whole numbers beyond 16 bits such as -99999, and fractions are
  rounded to float16 first: 2049.5 becomes 2050 (`C95_numpy2_replaced`).  The comparison with the limits of float32 and
  float64 in `reconcile_nullvalue_with_dtype` has no effect (`secondTry_whole`).
* `get_common_dtype` depends on the order of float16/float32 items (`C19_dtype_order_matters`) and ignores integers that
  fit no type together (`C19_unfitting_literals_ignored`).
* Operations with several outputs raise a TypeError on rasters without null value (`C14_rejected`).
* `replace_null` is `set_null_value`.

### Grids and chunks
* `get_chunk_bounding_boxes` fails on chunks with a single row or column (`C21_single_row_chunk`), hence `rasterize`, `clip`,
  `erase` and `mask` fail on rasters with such a chunk (`C33_single_row_chunk`, `C34_single_row_chunk`).
* `to_points` with a geographic CRS is a KeyError (`C22_geographic_crs`).
* `get_chunk_rasters` assigns `band=[1]` and fails for chunks of several bands.
* `grids_close` is not symmetric, so `are_all_grids_same` depends on the order.
* `Raster.resolution` is documented as always positive but has signs.

### Bands, remapping, selection
* A stack's null cells may hold a null value that is only close to the stack's (`C23_close_null_not_replaced`).
* A fill value that wraps around to the null value is not marked null (`C24_fill_wraps_to_null`).
* `remap_range`, `reclassify` and `where` recover null cells from values: valid cells equal to the result's null value become
  null (`C25_boolean_true_lost`, `C27_scalar_lost`, `C27_boolean_lost`).
* `reclassify` changes the caller's dictionary; a second identical call differs (`C26_second_call_differs`).  Fractions match
  integer keys (`C26_fraction_matches_integer_key`).
* `regions` with repeated values gives colliding labels (`C28_duplicates_collide`).
* The regular expression of remap files accepts `e5` and `+`, which then raise a ValueError.

### Statistics and windows
* `nanargmin`/`nanargmax` may return the position of a NaN (`C38_argmin_returns_nan`); `nanmode` sorts the caller's array
  (`C38_mode_sorts_argument`).
* Focal min, max and sum on rasters without null value use another origin for even windows (`C29_even_window`) and see
  padding through an annulus (`C29_annulus_edge`).
* `get_focal_window` for a rectangle has `width` rows.
* Zonal `_melt_part` sorts band labels as strings; values equal to the null value are dropped by value, not by mask.

### Blocks
* `_resolve_gbi_with_overlap_pad` is wrong for asymmetric depths (`C49_asymmetric`) and for blocks at the edge without a
  boundary (`C49_first_block`, documented as approximate).
* Naming `out_null_value` with `return_mask=True` raises a KeyError unless the type is given
  (`C48_out_null_value_with_return_mask`).
* A pair of zeros for the band axis is rejected (`C36_pair_for_bands`).  Booleans pass as integers.  A boundary number is
  compared with the null value before it is converted to the data type.

### Rasterize and clip
* A null value NaN (`C33_nan_null_value`), NaN feature values (`C33_nan_values`) and values equal to the null value
  (`C33_value_is_null_value`) give results that depend on the partitions.
* A call without spatial partitions leaves partitions trimmed to its raster on the caller's vector; a later call onto another
  raster loses features (`C33_second_call`).
* `rasterize(mask=True, null_value=1)` makes the touched cells null (`C33_mask_null_value_one`).

### Surfaces
* `aspect` ignores the resolution: wrong for south-up rasters (`C50_south_up`; such a raster can only come
  from a ready-made `xr.Dataset`, since all other inputs are flipped by `normalize_xarray_data`) and for cells that are not square
  (`C50_rectangular_cells`).
* `surface_area_3d` uses the cell width for both sides (`C51_rectangular_cells`, a TODO in the code).
* Level cells get northing cos 1° and easting -sin 1° (`C52_level`).
* Cells beside null cells hold NaN but are not null; hillshade casts that NaN to uint8 (`C53_next_to_null`).  Hillshade cells
  of brightness 255 become null (`C53_lit_from_above`).
* `curvature` divides by the product of the resolutions and is wrong for quadrics on cells that are not square.

### Vectors
* Reading a layer without features is an UnboundLocalError (`C39_read_empty`).
* `_get_len_from_divisions` "should never overcount" but does for filtered frames (`C39_overcount`); `Vector` accepts a size
  that is off by one.
* `vec[i]` looks up the index value `i`, not position `i` (`C54_other_index`).

### Local statistics, aggregation, prediction
* `local_stats` of a raster without a null value and with `n > 1` bands gives `n` bands: the mask keeps `n` bands and
  `xr.Dataset` joins by an outer join, so the other bands are NaN, and integers become floats (`C55_unmasked_bands`).
* 8-bit rasters with a null value are summarised in float16 (`C55_half_precision`); this affects `local_stats`, `aggregate`
  and `focal`.
* `minband`/`maxband` can name a band that is null if the valid bands are infinite (`C55_minband_null`).
* An undefined mode becomes a valid 0 in `aggregate` (`C56_mode_of_nan`), NaN cast to the dtype in `local_stats`.
* `np.nan_to_num` in `model_predict_raster` replaces infinities by the largest numbers (`C57_infinities`).
* `model_predict_vector` calls `model.predict` on empty arrays for partitions without valid rows.

### Dilation and erosion
* `dilate` and `erode` give rasters without a null value the default null value, so `erode(dilate(r))` is null near the edges
  (`C59_closing_loses_edges`), and a value equal to the default null value is valid in the result (`C58_default_null_value_in_use`)
  but null in everything that looks at values only.
* The fill is the limit of the dtype and wins over infinities (`C58_infinity`); for bool rasters `np.finfo(bool)` raises.

### Construction
* A lazy Dataset with the standard dimensions is taken as it is, also with y going up or x going down (`C60_dataset_south_up`).
* A `_FillValue` attribute of `None` means "no null value" for data in memory but not for dask data (`C60_fill_none`).
* `data_to_xr_raster` checks twice that `x` is a numpy array and never that `y` is one (`raster.py:747`).

### Creation and reductions
* `zeros_like(r, copy_mask=True)` has another dtype than `zeros_like(r)`: the null value of the template takes part in the promotion
  (`C61_mask_changes_dtype`).
* `ones_like(r, dtype=r.dtype, copy_mask=True)` of a raster with null value 1 has cells that are valid and hold the null value
  (`C61_value_is_null_value`).
* `min()` and `max()` of a raster without valid cells are empty arrays, while `sum()` is 0 and `mean()` NaN (`C62_min`).

### Files
* A valid cell that holds the null value is null after `save` and opening the file (`C63_valid_null_value`); a NaN in a float
  raster without a null value becomes null (`C63_nan_without_null_value`).
* The null value of an int64 raster beyond 2^53 is replaced or refused with care, that of an uint64 raster is not
  (`C63_unsigned_null_value`).
* Saving an int64 raster with the default null value writes float64, which rounds large values (`C63_large_values_rounded`).

### Points and polygons
* `to_polygons` converts to int32 or single precision first: values that do not fit share a row, under a wrong value
  (`C67_large_integers`, `C67_doubles`); valid NaN cells have no polygon (`C67_nan`).
* The `neighbors` argument of `to_polygons` has no effect on the regions, as polygons of one value are joined afterwards
  (`C67_independent`).
* `_shapes_delayed` sets null cells to 0 in the chunk it was given, which may be the data of the raster itself.
* `extract_points_eager` reads all values as doubles, so integers beyond 2^53 are rounded.

### Line statistics
* `weighting_field` only works for a field called "weights": `gdf.rename({field: "weights"})` renames row labels, not columns, and
  `gdf.weights` raises an AttributeError (`C68_other_fields`).  The tests only use that name.
* A radius larger than the raster is a ValueError from dask (`C68_accepted`), though the margin of the blocks is never read.
* Clipping a line that only touches the box of a block leaves a point; `overlay` refuses lines and points together.

### Batch scripts
* `ARITHMETIC` calls `_binary_arithmetic`, which does not exist; `EXTRACTBAND` and `SETNULL` call `args_str.pop(0)` on a text;
  `REMAP` calls `remap_range` with three or more numbers.  All four fail for every input (`C69_broken_functions`).
* An unknown arithmetic operation is a KeyError, as the check comes after the lookup.
* The argument of `OPENRASTER` is not stripped, so `OPENRASTER( a.tif )` does not find the file (`C69_open_blanks`).
* `SAVEFUNCTIONRASTER` without a null value saves with null value 0, so valid zeros become null (`C69_save_default`).
* An empty script is a KeyError.

### Topographic position index
* In a raster without a null value, a cell with no cell of the raster in its annulus gets NaN converted to int32 as a valid value
  (`C70_empty_annulus`).
* The radii count the cell itself: `outer = 10` reaches 9 cells, not the 10 of the documentation.
* The fraction is dropped after adding a half, so a hole of depth 1 has index 0 and a hill of height 1 has index 1 (`C70_holes`).

### Cost distance on rasters
* Null elevations are replaced by -9999 and a valid elevation of -9999 is taken for null, even if the raster has no null value
  (`C71_elevation_9999`).  In float16 the replacement is rounded to -10000, and null cells are crossed (`C71_float16_elevation`).
* `da.where(mask, -1, data)` with unsigned costs: NumPy 2 raises an OverflowError (or, in some versions, wraps around, so that null cells
  can be crossed at a cost of 255) (`C71_unsigned`).  The same holds for elevations that cannot hold -9999.
* A source in a cell of negative cost is valid, though negative costs "are treated as null values" (`C71_negative_source`).
* The null value of the costs is used for the distances, so a valid distance can be equal to it; with a null value of 0 this is so for every
  source (`C71_null_zero`), which is then null when the result is saved and opened.
* Sources are told by comparing with the null value after a conversion to int64; the null value of uint64 sources does not survive it.

### Proximity on rasters
* After null cells have been replaced by NaN, rasters of bool, int8, uint8 and float16 (all float16 by then) are converted with
  `Raster.astype`, which writes the null value back.  Null cells are then sources unless the null value is 0 or not a target value
  (`C72_null_is_source`).  The tests use a null value of 0 in uint8.
* The mask of the result is made by comparing with the default null value, so an allocation of 255 in uint8 is null, and so is every
  allocation in a raster of booleans (`C72_allocation_lost`).
* If `max_distance` is longer than a side and shorter than the diagonal, the overlap is larger than the raster and dask raises a ValueError
  (`C72_distance_refused`).
* The margin around rasters of integers is NaN converted to an integer, which is a source if no target values are given
  (`C72_margin_is_source`).
* The message for wrong latitudes says "Invalid longitude values" and the other way round.

### Arithmetic between rasters
* Rasters with different bands or coordinates are combined without a message if neither has a null value: the result has only what is common
  (`C73_bands_lost`: three bands and one band give one band; `C73_empty`: coordinates that differ by a rounding error give an empty raster).
  If one of them has a null value, the same operation raises xarray's MergeError from `mask |= m`.  The CRS is not compared.
* `raster.bandwise` refuses a list with one value per band if the raster has one column or as many columns as bands
  (`C74_width_matters`): "Operands can be broadcast together".

### Grids of stacks and mosaics
* `grids_close` allows a thousandth of a pixel for each coefficient of the affine, also for the size of the pixels, whose error adds up over
  the columns: 2000 columns of 30 m and of 30.03 m are the same grid although the last cells are two pixels apart (`C75_drift`).  The
  tolerance is of the longer side, so pixels of 1 by 1000 may be shifted by a whole column (`C75_shift`).
* The comparison is with the first grid and its pixels only, so the order of the grids matters (`C75_order`).
* `combine_grids` uses the width of the first grid's pixels as width and height (`C75_square`), and takes metres for degrees if `dst_crs` is given
  without a resolution (`C75_units`); `mosaic` has no parameter for the resolution.
* `stack_bands(resolution=...)` compares only the width of the pixels (`C75_resolution_kept`).
* With `join="inner"`, "only pixels covered by every input appear in the output" does not hold for grids that touch or are not aligned
  (`C75_touching`, `C75_beyond`).

### Zonal statistics (C76)
* `zonal_stats` with a feature raster whose chunks differ from those dask would choose for the data raises a ValueError if the
  data raster has several bands: the feature raster, which has one band, is given the chunks of the data raster in all three
  dimensions (`zonal.py:232-234`, `C76_chunks`).
* The long format sorts the labels `band_1`, `band_10`, `band_2`, … as text, and converts them to numbers afterwards
  (`zonal.py:192-195`, `C76_band_ten`). The row numbers are those from before sorting (`C76_index`).
* A feature raster is compared with the data raster by CRS and shape only; cells of rasters that lie elsewhere, or have another
  resolution, are paired (`zonal.py:470-474`, `C76_location`).
* The zones of a vector without a field are the index plus one, and 0 is the null value: a feature with index -1 has no row, as
  has one whose field has the default null value of its type (`C76_zone_zero`).
* The documentation of `asm` has the opposite sign (`-sum(P(g)**2)`) of what is computed (`zonal.py:35-46`, `C32_asm`).

### Remap files (C77)
* The mantissa in `_INT_OR_FLOAT_RE` is optional, so the lines `-:5`, `+:5`, `e5:1` and `1:-` match; `int` and `float` then raise a ValueError
  ("invalid literal for int() with base 10: '-'") without the number of the line, instead of `RemapFileParseError` (`C77_sign_alone`).

### Prediction for vectors (C78)
* `pred[valid_mask] = y` broadcasts: a model with one output and `n_outputs=3` gives three equal columns (`C78_broadcast`).
* The model is called with an array of no rows for a partition without a valid row (`C78_no_valid_rows`); scikit-learn raises "Found array
  with 0 sample(s)".
* The message for a name that is taken lacks the f-prefix: it ends with the text `'{c}'`.

### Reprojection (C79)
* `warp.py:94`: the docs allow a tuple for `resolution`, but `resolution <= 0` is evaluated for it too, which raises a TypeError.
* `warp.py:100-104`: a raster without a null value gets the default one, so valid cells that hold it (255 in uint8, the smallest value of signed integers) are null, or another value, in the result.
* A geobox with rows from south to north is turned, so the result does not have the grid that was asked for.

### Rasters from arrays (C80)
* `raster.py:747` tests `x` twice and never `y`; a list for `y` raises an AttributeError at `y.ravel()`. The docs of `data_to_raster` allow lists for both.
* The docs of `data_to_raster` and `data_to_xr_raster_ds` give the default affine with `1.0` as the scale of the rows; it is `-1.0`.

### Datasets (C81)
* `io.py:511`: `_build_raster` passes the data as stored, whatever the order of the dimensions; a variable stored as (x, y) or (y, x, time) gives a raster of other sizes without an error.
* `io.py:511`: an affine is always given, so the coordinates of the file are ignored; uneven coordinates (Gaussian latitudes) are replaced by even ones without a warning.
* `io.py:507`: `squeeze` also drops rows or columns of length 1, after which rioxarray raises a MissingSpatialDimensionError.
* `io.py:493`: a variable with fewer than two dimensions is an error even with `ignore_extra_dim_errors`.
* `io.py:512`: without a null value the default one is set, and elements that hold it become null.
* `open_dataset` writes `decode_coords` into the caller's `xarray_kwargs`.

### Layers and derived vectors (C82, C83)
* `vector.py:681`: `to_crs` hands the known size to `Vector`, which compares it with the divisions (`vector.py:398-404`). If the index has gaps they disagree: `Vector(gdf[gdf.area > a]).to_crs(crs)` raises a ValueError. `clip`, `erase`, `extract_points_eager` and `length`, which call `to_crs` first, fail likewise for such frames.
* `vector.py:752,769`: `buffer` and `simplify` of a GeoDataFrame are series, so the new vector has no attributes.
* `vector.py:874`: the size after `spatial_shuffle` is computed from Hilbert distances, and can be any number.
* `vector.py:793`: `save` opens all layers of the file it has written to and returns a list if there are others, against its docs.
* `vector.py:384`: `from_geopandas` sorts, so `Vector(gdf)` reorders the features if the index is not in order.
* `Vector.load` and `to_lazy` have no effect: the frame that `load` computes is made lazy again at `vector.py:384`.

### Georeferenced blocks (C84)
* `blocks.py:1582-1589`: the wrong block infos of C49 are also the coordinates of the blocks: without a boundary (the default) and a depth of 1, a function that uses `block.y` gets other values in the last rows if the raster is in several chunks.
* `blocks.py:141`: the `band` coordinate of blocks starts at 0; that of rasters at 1 (`raster.py:649`). `block.sel(band=1)` is the second band.

### The extent of pad (C85)

- `pad` promises a raster "covering at least the requested extent" (`_padding.py:147-150`). It leaves the work to `rio.pad_box`, which adds the cells whose *centre* lies within the target. A target that ends before the middle of a cell (or at it) is not covered: a raster with column edges 0, 1, 2, 3 padded to `maxx=3.4` stays as it is (`C85_uncovered`). Up to half a cell can be missing on each side (`C85_half`). The tests pad by whole cells only.

### The grid of aggregate (C86)

- A raster that is aggregated to a single row or column has the wrong transform (`C86_single`). rioxarray cannot derive the cell size from a single coordinate and takes the stored `GeoTransform` instead, which `coarsen` has passed on from the raster before (`general.py:296-319`, `raster.py:672`). Four by four unit cells aggregated by `(4, 2)` have columns at 1 and 3, but `resolution` is still `(1, -1)`, so `bounds`, `xy` and `index` are off by the factor of the window in both directions. For rasters with null values the attribute can be lost in `xr.where`, and the resolution is `(1, 1)`.

### Great circle distance (C87)

- `_estimate_min_resolution` (`proximity.py:526-537`) takes the cell size at `lat.max()` to "always overestimate and never underestimate the depth". South of the equator the largest latitude is the one where cells are *widest*: for rows at 0 and -60 degrees the overlap is half of what is needed, and cells whose only source within `max_distance` is in another chunk are null (`C87_south`).
- Also in the north the overlap can be too small: a parallel is bent, so `n` columns are less than `n` cell widths apart (`C87_bent`). This matters for rasters that span a large part of the globe.
- The sweep hands candidates from neighbour to neighbour and never across the end of the raster (`C87_seam`). In a raster from 165 degrees west to 165 degrees east a source in the first column is not found from the last column, though they are 30 degrees apart, chunks or not (`C87_around`).
- With one row or column and a finite `max_distance` the estimate raises (`lon[1]`, `np.partition(lat, -2)`; `C87_single`).
- The messages of `_validate_lonlat_coords` have longitude and latitude swapped.

### Mosaic of rasters (C88)

- With NaN as null value of the result, null cells become valid cells (`C88_nan`). `mosaic` converts each source with `.astype(dtype, new_null_value=nodata)` and then compares the *data* with `nodata` (`_mosaic.py:320-327`, `145-152`). But `astype` with NaN uses the default null value of the dtype, since `reconcile_nullvalue_with_dtype` replaces every NaN (`masking.py:78-79`). So `mosaic([a, b])` of two float32 rasters, `a` with null value NaN and `b` with -9999, has the valid value -3.4e38 wherever `b` is null, also where `a` has data. The same happens with `null_value=np.nan`.
- Null values that are nearly equal are taken as equal by `astype` (`np.allclose`, `raster.py:1909-1911`), which then leaves the null cells alone, but `_mosaic` compares exactly. Two int32 rasters with the null values -2147483648 and -2147483647 give a mosaic with valid cells of -2147483647 (`C88_close`).
- Boolean rasters raise with 'min' and 'max' (`np.iinfo(bool)`, `_mosaic.py:110`; `C88_boolean`; there is a TODO next to the call).
- Float rasters with NaN cannot be mosaicked to an integer dtype without `null_value` (`C88_nan_integer`): the null value of the first raster is taken before the dtype's default. The documentation says that the default is "based on the output raster's dtype", which holds only if no raster has a null value.

### Rounding (C89)

* `r.round(-1)` of integers goes through doubles and is cast back without a check: 255 in `uint8` becomes 260, which wraps (`C89_wraps`).
* A valid cell that is rounded to the null value stays valid in the mask but holds the null value; saving the raster loses it
  (`C89_becomes_null_value`, cf. C63).

### Polygons and back (C90)

`to_polygons` does not say which values are null, and `rasterize` fills with the default null value of the dtype if no `null_value` is
given.  A valid cell that holds that value (e.g. 255 in uint8) has a polygon, but comes back as a null cell (`C90_default_lost`).

### Labels and null values (C92)

`regions` (`general.py:168-172`) gives its labels the null value of the raster, converted to uint64.  Labels are 1, 2, 3, ..., so a
raster whose null value is a small number, such as 1, gets a patch whose label is the null value.  The mask is still right, but
`zonal_stats` (`zonal.py:259-261`) and everything else that compares values, such as a saved file, takes this patch for null
(`C92_lost`, `C92_label_is_null_value`).

### Sums in half precision (C93)

`aggregate` (`general.py:286-312`) and `local_stats` convert rasters with a null value by `get_raster(..., null_to_nan=True)`, which
turns 8 bit integers into float16.  Sums of windows are then float16: nine cells of 255 give 2296 instead of 2295
(`C93_half_precision`), and windows of more than 256 such cells infinity.  Without a null value the sum is an exact integer.

### Area of transposed terrain (C94)

`surface_area_3d` (`surface.py:125-137`) gives `_surface_area_3d` the width of a cell only, see C51.  Exchanging rows and columns
of a level surface with cells of 2 by 1 units turns areas of 4 into areas of 1 (`C94_transposed_area`); both should be 2.

### Default null values that are data (C96)

`aggregate` (`general.py:320-335`) and `local_stats` with "mode" return values of the raster in its own dtype, but mark null cells with
the default null value of the dtype instead of the null value of the raster.  For bytes with null value 0 that is 255: windows in
which 255 is the most frequent value hold the null value without being null, and are null once the raster is saved (`C96_mode`).
`set_null` on a raster without null value has the same effect (`C96_default_null`), as have `dilate` and `erode`
(`C58_default_null_value_in_use`).

### Versions of NumPy and dask that are not final releases (C100)

`version_to_tuple` passes each part of the version to `int()`. With a release candidate, a development version or a local build of NumPy ("2.4.0rc1",
"2.3.0.dev0+git20250101") `import raster_tools` is a ValueError, since `_compat.py` compares versions on import. With such a dask, `zonal_stats` with the median is.
"2.0" counts as older than (2, 0, 0).

### Elsewhere
* `normalize_xarray_data` calls `dims.remove` on a tuple if no spatial dimensions are found (AttributeError).
* `urlparse(path) == ""` in `io.py` is never true.

## Axioms per theorem

Output of `#print axioms` for every theorem of `MANIFEST.json`, grouped by the answer.

**Classical.choice, Quot.sound, propext** (638):
`Heap.C01_heap_is_map`, `Heap.C02_heap_memory_safe`, `Heap.C03_heap_flags`, `Heap.C04_drain_sorted`, `Heap.C04_capacity_independent`, `CostDistance.C05_cost_distance_least`, `CostDistance.C05_rejections`, `CostDistance.C06_reached_iff_path`, `CostDistance.C07_traceback`, `CostDistance.C08_iteration_budget`, `Proximity.C09_real_targets`, `Proximity.C41_nearest_partial`, `GreatCircle.C41_great_circle`, `Proximity.C42_chunk_equals_whole_partial`, `Proximity.C42_chunk_real_targets`, `Mosaic.C11_integer_min_max`, `Mosaic.C11_float_min_max`, `Mosaic.C12_sum_partial`, `Mosaic.C12_float_partial`, `Mosaic.C13_parallel_scan`, `Mosaic.C13_halving_float`, `Mosaic.C13_halving_integer`, `Nulls.C18_default_fits`, `Nulls.C18_reconcile_fits`, `Nulls.C18_boolean`, `Nulls.C43_kept_numpy1`, `Nulls.C43_kept_numpy2_partial`, `Nulls.C43_numpy2_replaces_fitting_value`, `Nulls.C43_pyInt`, `Nulls.C19_common_dtype_holds_literals`, `Nulls.C19_float_type`, `Nulls.C19_special_floats`, `Nulls.C14_elementwise`, `Nulls.C14_with_numbers`, `Nulls.C15_set_null`, `Nulls.C15_idempotent`, `Nulls.C15_union`, `Nulls.C15_order`, `Nulls.C15_null_mask`, `Nulls.C16_set_null_value`, `Nulls.C16_clear`, `Nulls.C16_rejected`, `Nulls.C16_nan_dtype`, `Nulls.C16_boolean_nan`, `Nulls.C16_boolean_false`, `Nulls.C16_uint64_loses_digits`, `Nulls.C16_replace_null`, `Nulls.C17_astype`, `Nulls.C17_new_null_partial`, `Nulls.C17_close_null_ignored`, `Nulls.C17_close_iff`, `Nulls.C17_unmasked_null_ignored`, `Nulls.C17_nan_null_replaced`, `Nulls.C44_null_cells_hold_null_value`, `Nulls.C44_boolean_false_null`, `Nulls.C44_array`, `Grid.C20_index_of_xy`, `Grid.C20_unique_cell`, `Grid.C20_rectangle`, `Grid.C21_locations`, `Grid.C21_axis_partition`, `Grid.C21_chunk_rasters`, `Grid.C21_block_info`, `Grid.C21_bounding_boxes`, `Grid.C21_single_row_chunk`, `Grid.C22_points`, `Grid.C35_resize`, `Grid.C35_named`, `Grid.C35_undo`, `Grid.C35_pad_undo`, `Grid.C35_shift_add`, `Grid.C35_history`, `Bands.C23_stack_split`, `Bands.C23_rejected`, `Bands.C23_null_value`, `Bands.C23_close_null_not_replaced`, `Bands.C24_pad`, `Bands.C24_exact_fill`, `Bands.C24_fill_wraps_to_null`, `Bands.C46_compose`, `Remap.C25_accepted`, `Remap.C25_remap_range`, `Remap.C25_dtype`, `Remap.C25_rejected`, `Remap.C25_errors`, `Remap.C25_boolean_true_lost`, `Remap.C26_fraction_matches_integer_key`, `Remap.C27_where_partial`, `Remap.C27_documented_partial`, `Remap.C27_rejected`, `Remap.C27_accepted`, `Remap.C27_shape`, `Remap.C27_scalar_lost`, `Remap.C27_boolean_lost`, `Regions.C28_labels`, `Regions.C28_regions`, `Regions.C28_order`, `Regions.C28_null_value`, `Regions.labeler_exists`, `Regions.C28_duplicates_collide`, `Stats.C38_unique`, `Stats.C38_asm`, `Stats.C38_entropy`, `Stats.C38_mode`, `Stats.C38_invariance`, `Stats.C38_argmin_partial`, `Stats.C38_argmax_partial`, `Stats.C38_mode_sorts_argument`, `Focal.C29_masked`, `Focal.C29_unmasked`, `Focal.C29_rejected`, `Focal.C29_unmasked_dtypes`, `Focal.C29_unique_dtype`, `Focal.C29_min_max_partial`, `Focal.C29_sum_partial`, `Focal.C29_solid_windows`, `Focal.C29_even_window`, `Focal.C29_annulus_edge`, `Focal.C30_annulus`, `Focal.C30_symmetric`, `Focal.C30_accepted`, `Focal.C30_errors`, `Focal.C31_correlate`, `Focal.C31_linear_in_kernel`, `Focal.C31_linear_in_data`, `Focal.C31_convolve`, `Focal.C31_convolve_flip`, `Focal.C31_rejected`, `Focal.C31_too_large`, `Focal.C31_product`, `Focal.C31_sum`, `Zonal.C32_mode`, `Zonal.C32_nunique`, `Zonal.C32_asm`, `Zonal.C32_entropy`, `Zonal.C32_arguments`, `Utils.C40_3d`, `Utils.C40_flatten`, `Rasterize.C33_rasterize_partial`, `Rasterize.C33_partitions_partial`, `Rasterize.C33_mask`, `Rasterize.C33_rejected`, `Rasterize.C33_methods`, `Rasterize.C33_nan_null_value`, `Rasterize.C33_nan_values`, `Rasterize.C33_value_is_null_value`, `Rasterize.C33_second_call`, `Rasterize.C33_single_row_chunk`, `Rasterize.C33_mask_null_value_one`, `Clip.C34_clip_partial`, `Clip.C34_erase_partial`, `Clip.C34_split_partial`, `Clip.C34_mask_partial`, `Clip.C34_envelope_partial`, `Clip.C34_rejected`, `Clip.C34_single_row_chunk`, `Blocks.C36_depth_partial`, `Blocks.C36_pair_for_bands`, `Blocks.C36_asymmetric`, `Blocks.C36_known_boundary`, `Blocks.C36_boundary`, `Blocks.C48_map_overlap`, `Blocks.C48_chunks`, `Blocks.C48_accepted`, `Blocks.C48_map_blocks`, `Blocks.C48_out_bands`, `Blocks.C48_out_bands_rejected`, `Blocks.C48_out_null_value_with_return_mask`, `Blocks.C49_block_info_partial`, `Blocks.C49_exact_iff`, `Blocks.C49_asymmetric`, `Blocks.C49_first_block`, `Surface.C37_slope`, `Surface.C37_curvature`, `Surface.C37_aspect`, `Surface.C37_hillshade`, `Surface.C37_hillshade_plane`, `Surface.C37_constant`, `Surface.C37_reads_inside`, `Surface.C53_null_cells`, `Surface.C53_hillshade`, `Surface.C50_downhill_partial`, `Surface.C50_south_up`, `Surface.C50_rectangular_cells`, `Surface.C51_area_partial`, `Surface.C51_plane`, `Surface.C51_rectangular_cells`, `Surface.C52_downhill_partial`, `Surface.C52_range`, `Surface.C52_null`, `Surface.C52_level`, `Surface.C53_next_to_null`, `Surface.C53_lit_from_above`, `Vector.C39_read`, `Vector.C39_partitions`, `Vector.C39_size_partial`, `Vector.C39_overcount`, `Vector.C39_ids`, `Vector.C39_ids_default`, `Vector.C39_ids_shared`, `Vector.C39_name`, `Vector.C54_access_partial`, `Vector.C54_iterate_partial`, `Vector.C54_open`, `Vector.C54_other_index`, `Reduce.C55_unmasked_single`, `Reduce.C55_unique`, `Reduce.C55_minband_partial`, `Reduce.C55_maxband_partial`, `Reduce.C55_minband_null`, `Reduce.C55_half_precision`, `Reduce.C56_partition`, `Reduce.C56_coordinates`, `Reduce.C56_unique`, `Reduce.C56_rejected`, `Reduce.C56_errors`, `Reduce.C56_mode_of_nan`, `Reduce.C57_predict`, `Reduce.C57_outputs`, `Reduce.C57_given`, `Morph.C58_dilate`, `Morph.C58_erode`, `Morph.C58_unmasked`, `Morph.C58_sizes`, `Morph.C58_accepted`, `Morph.C58_errors`, `Morph.C59_adjoint`, `Morph.C59_extensive`, `Morph.C59_opening`, `Morph.C59_closing_partial`, `Morph.C59_closing_nulls`, `Build.C60_values`, `Build.C60_orientation`, `Build.C60_accepted`, `Build.C60_refused`, `Build.C60_errors`, `Build.C60_twice`, `Build.C60_nulls`, `Build.C60_dataset`, `Build.C60_dataset_refused`, `Build.C60_fill_none`, `Build.C60_dataset_south_up`, `Build.C60_no_coordinates`, `Build.C60_positional`, `Build.C60_standard_dataset`, `Create.C61_copy_mask_partial`, `Create.C61_random_errors`, `Create.C61_random`, `Create.C61_random_accepted`, `Whole.C62_min`, `Whole.C62_max`, `Whole.C62_sum`, `Whole.C62_sum_infinite`, `Whole.C62_mean`, `Whole.C62_all_any`, `Files.C63_round_trip_partial`, `Files.C63_int64`, `Files.C63_null_value`, `Files.C63_refused`, `Files.C63_opened_null_value`, `Files.C63_valid_null_value`, `Files.C63_nan_without_null_value`, `Files.C63_unsigned_null_value`, `Files.C63_large_values_rounded`, `Files.C64_tile_order`, `Files.C64_band_order`, `Files.C64_tile_contents`, `Files.C64_band_contents`, `Extract.C66_accepted`, `Extract.C66_refused`, `Extract.C66_errors`, `Extract.C66_rows`, `Extract.C66_columns`, `Extract.C66_unique`, `Extract.C66_to_points`, `Polygons.C67_polygons_partial`, `Polygons.C67_independent`, `Polygons.C67_large_integers`, `Polygons.C67_doubles`, `Polygons.C67_nan`, `Lines.C68_length_partial`, `Lines.C68_other_fields`, `Lines.C68_accepted`, `Lines.C68_batches`, `Lines.C68_errors`, `Batch.C69_script_partial`, `Batch.C69_statement_unique`, `Batch.C69_broken_functions`, `Batch.C69_arithmetic`, `Batch.C69_remap`, `Batch.C69_malformed`, `Batch.C69_not_a_call`, `Batch.C69_call_fails`, `Batch.C69_save_errors`, `Batch.C69_null_errors`, `Batch.C69_composite_errors`, `Batch.C69_nothing`, `Batch.C69_open_blanks`, `Batch.C69_save_default`, `Tpi.C70_tpi_partial`, `Tpi.C70_accepted`, `Tpi.C70_errors`, `Tpi.C70_empty_annulus`, `Tpi.C70_holes`, `CostRaster.C71_cost_distance_partial`, `CostRaster.C71_accepted`, `CostRaster.C71_errors`, `CostRaster.C71_unsigned`, `CostRaster.C71_negative_source`, `CostRaster.C71_elevation_9999`, `CostRaster.C71_float16_elevation`, `CostRaster.C71_null_zero`, `ProxRaster.C72_sources_partial`, `ProxRaster.C72_nearest_partial`, `ProxRaster.C72_accepted`, `ProxRaster.C72_chunks`, `ProxRaster.C72_distances_distinct`, `ProxRaster.C72_direction_zero`, `ProxRaster.C72_null_is_source`, `ProxRaster.C72_allocation_lost`, `ProxRaster.C72_distance_refused`, `ProxRaster.C72_margin_is_source`, `Pair.C73_accepted`, `Pair.C73_pairs`, `Pair.C73_array_accepted`, `Pair.C73_array`, `Pair.C73_array_errors`, `Pair.C73_errors`, `Pair.C73_bands_lost`, `Pair.C73_empty`, `Pair.C73_two_results_fail`, `Pair.C74_accepted`, `Pair.C74_bandwise`, `Pair.C74_width_matters`, `Boxes.C75_equal`, `Boxes.C75_same_partial`, `Boxes.C75_union`, `Boxes.C75_union_aligned`, `Boxes.C75_intersection_partial`, `Boxes.C75_intersection_accepted`, `Boxes.C75_intersection_aligned_partial`, `Boxes.C75_stack_partial`, `Boxes.C75_stack_equal`, `Boxes.C75_given_grid`, `Boxes.C75_rejected`, `Boxes.C75_rejected_errors`, `Boxes.C75_drift`, `Boxes.C75_shift`, `Boxes.C75_order`, `Boxes.C75_square`, `Boxes.C75_resolution_kept`, `Boxes.C75_touching`, `Boxes.C75_beyond`, `Boxes.C75_units`, `ZonalTable.C76_wide`, `ZonalTable.C76_accepted`, `ZonalTable.C76_vector`, `ZonalTable.C76_overlap`, `ZonalTable.C76_vector_rejected`, `ZonalTable.C76_names`, `ZonalTable.C76_disjoint`, `ZonalTable.C76_long`, `ZonalTable.C76_long_parts`, `ZonalTable.C76_long_order`, `ZonalTable.C76_long_order_partial`, `ZonalTable.C76_vector_long_partial`, `ZonalTable.C76_location`, `ZonalTable.C76_index`, `ZonalTable.C76_band_ten`, `ZonalTable.C76_chunks`, `ZonalTable.C76_zone_zero`, `RemapFile.C77_line`, `RemapFile.C77_blank`, `RemapFile.C77_refused`, `RemapFile.C77_file`, `RemapFile.C77_get`, `RemapFile.C77_get_errors`, `RemapFile.C77_duplicate`, `RemapFile.C77_roundtrip`, `RemapFile.C77_sign_alone`, `PredictVector.C78_rows`, `PredictVector.C78_one`, `PredictVector.C78_names`, `PredictVector.C78_rejected`, `PredictVector.C78_not_numeric`, `PredictVector.C78_broadcast`, `PredictVector.C78_single_row`, `PredictVector.C78_no_valid_rows`, `Warp.C79_grid`, `Warp.C79_cells_partial`, `Warp.C79_nearest_partial`, `Warp.C79_same`, `Warp.C79_rejected`, `Warp.C79_tuple`, `Warp.C79_value_lost`, `Warp.C79_turned`, `FromData.C80_cells`, `FromData.C80_accepted`, `FromData.C80_rejected`, `FromData.C80_orientation`, `FromData.C80_like`, `FromData.C80_lists`, `OpenDataset.C81_names`, `OpenDataset.C81_values_partial`, `OpenDataset.C81_accepted`, `OpenDataset.C81_rejected`, `OpenDataset.C81_too_few`, `OpenDataset.C81_transposed`, `OpenDataset.C81_one_row`, `OpenDataset.C81_irregular`, `OpenDataset.C81_default_lost`, `Layers.C82_layers_partial`, `Layers.C82_readers`, `Layers.C82_errors`, `Layers.C82_get_vector`, `Layers.C82_save`, `Layers.C82_count`, `Layers.C83_derived_partial`, `Layers.C83_shuffle_size`, `GeoBlocks.C84_geo_map_blocks`, `GeoBlocks.C84_out_bands`, `GeoBlocks.C84_plain`, `GeoBlocks.C84_plain_blocks`, `GeoBlocks.C84_accepted`, `GeoBlocks.C84_displaced`, `GeoBlocks.C84_geo_map_overlap_partial`, `GeoBlocks.C84_chunks`, `GeoBlocks.C84_grids`, `GeoBlocks.C84_chunks_matter`, `GeoBlocks.C84_asymmetric`, `GeoBlocks.C84_band_labels`, `PadBox.C85_grid`, `PadBox.C85_cells`, `PadBox.C85_extent_partial`, `PadBox.C85_half`, `PadBox.C85_inside`, `PadBox.C85_targets`, `PadBox.C85_more_targets`, `PadBox.C85_uncovered`, `Coarse.C86_grid_partial`, `Coarse.C86_coordinates`, `Coarse.C86_single`, `GreatCircle.C87_distance`, `GreatCircle.C87_metric`, `GreatCircle.C87_accepted`, `GreatCircle.C87_rows`, `GreatCircle.C87_covered_partial`, `GreatCircle.C87_bent`, `GreatCircle.C87_south`, `GreatCircle.C87_seam`, `GreatCircle.C87_around`, `GreatCircle.C87_single`, `GreatCircle.C87_two_largest`, `GreatCircle.C87_errors`, `MosaicRaster.C88_mosaic_partial`, `MosaicRaster.C88_sum_partial`, `MosaicRaster.C88_aligned`, `MosaicRaster.C88_rejected`, `MosaicRaster.C88_nan`, `MosaicRaster.C88_close`, `MosaicRaster.C88_boolean`, `MosaicRaster.C88_nan_integer`, `MosaicRaster.C88_value_errors`, `MosaicRaster.C88_default_resampling`, `Round.C89_nulls`, `Round.C89_values_partial`, `Round.C89_integers`, `Round.C89_idempotent`, `Round.C89_monotone`, `Round.C89_wraps`, `Round.C89_becomes_null_value`, `Trips.C90_polygons_partial`, `Trips.C90_mask`, `Trips.C90_default_lost`, `Trips.C91_four`, `Trips.C91_eight`, `Trips.C92_patches_partial`, `Trips.C92_null_value`, `Trips.C92_lost`, `Trips.C92_label_is_null_value`, `Trips.C93_sum_partial`, `Trips.C93_max_min`, `Trips.C93_mean_partial`, `Trips.C93_half_precision`, `Trips.C94_west_east`, `Trips.C94_north_south`, `Trips.C94_transposed_partial`, `Trips.C94_transposed_area`, `Trips.C94_stretched`, `Trips.C94_inverted`, `Nulls.C95_numpy1_partial`, `Nulls.C95_numpy2_partial`, `Nulls.C95_nan_infinite`, `Nulls.C95_largest_replaced`, `Nulls.C95_numpy2_replaced`, `Trips.C96_values`, `Trips.C96_apart`, `Trips.C96_file_partial`, `Trips.C96_default_null`, `Trips.C96_mode`, `Trips.Zones.C97_sums`, `Trips.Zones.C97_counts`, `Trips.Zones.C97_total`, `Trips.Zones.C97_extremes`, `Trips.Windows.C98_max_dilate`, `Trips.Windows.C98_min_erode`, `Trips.Windows.C98_unmasked`, `Trips.Windows.C98_sum`, `Trips.Windows.C98_even`, `Trips.Stacks.C99_mosaic_partial`, `Trips.Stacks.C99_null_value_held`, `Trips.Stacks.C99_without_null_value`, `Versions.C100_release_partial`, `Versions.C100_flags_partial`, `Versions.C100_sign`, `Versions.C100_letters`, `Versions.C100_short`, `Trips.Twice.C101_sum_partial`, `Trips.Twice.C101_max_min_partial`, `Trips.Twice.C101_mean_partial`, `Trips.Twice.C101_mean_nulls`, `Trips.Points.C102_points_partial`, `Trips.Points.C102_default_lost`, `Trips.Tables.C103_tables`, `Trips.Tables.C103_fractions`, `ClipBox.C104_clip_box`, `ClipBox.C104_four`, `ClipBox.C105_pad_clip`, `Trips.Single.C106_correlate`, `Trips.Single.C106_convolve`, `Trips.Single.C106_middle`, `Trips.Single.C106_focal`, `Trips.Single.C106_one_cell`, `Kwargs.C107_accepted`, `Kwargs.C107_received`, `Kwargs.C107_kept`, `Kwargs.C107_dtype`, `Kwargs.C107_pack`, `Trips.Pieces.C108_pieces`, `Trips.Pieces.C108_quadrants`, `Trips.Pieces.C108_chunks`, `Trips.Pieces.C108_cells`, `Trips.Clips.C109_masks`, `Trips.Clips.C109_order`, `Trips.Clips.C109_nothing`, `Trips.Clips.C109_mask_clip`, `Trips.Clips.C109_boxes`, `Trips.Clips.C109_nested`, `Trips.Expressions.C110_cells`, `Trips.Expressions.C110_laws`, `Trips.Expressions.C110_accepted`, `Trips.Choices.C111_cells`, `Trips.Choices.C111_swapped`, `Trips.Choices.C111_and`, `Trips.Choices.C111_or`, `Trips.Choices.C111_again`, `Trips.Choices.C111_equal`, `Trips.Choices.C111_set_null`, `Trips.Variety.C112_unique`, `Trips.Variety.C112_asm`, `Trips.Variety.C112_entropy`, `Trips.Variety.C112_mode`, `Trips.Variety.C112_aggregate`, `Trips.C113_monotone`, `Trips.C113_scaled`, `Trips.C113_union`, `Trips.C113_symmetric`, `Trips.C113_triangle`, `Trips.C113_neighbours`, `Trips.C114_one_source`, `Trips.C114_limit`, `Trips.C114_values`, `Trips.Burns.C115_nulls`, `Trips.Burns.C115_masks`, `Trips.Burns.C115_bounds`, `Trips.Burns.C115_order`, `Trips.Burns.C115_tables`, `Trips.Cutouts.C116_sums`, `Trips.Cutouts.C116_extremes`, `Trips.Cutouts.C116_trim`, `Trips.Cutouts.C116_zones`, `Trips.Cutouts.C116_zone_numbers`, `Trips.Ranges.C117_cells`, `Trips.Ranges.C117_order`, `Trips.Ranges.C117_split`, `Trips.Ranges.C117_hidden`, `Trips.Ranges.C117_after`, `Trips.Ranges.C117_again`, `Trips.Ranges.C117_where`, `Trips.Ranges.C117_set_null`, `Trips.Ranges.C117_split_open`, `Trips.Dicts.C118_cells`, `Trips.Dicts.C118_order`, `Trips.Dicts.C118_unmapped`, `Trips.Dicts.C118_after`, `Trips.Dicts.C118_backwards`, `Trips.Dicts.C118_changed_dict`, `Trips.Islands.C119_again`, `Trips.Islands.C119_recoded`, `Trips.Islands.C119_ordered`, `Trips.Islands.C119_neighbors`, `Trips.Islands.C119_listed`, `Trips.Islands.C119_fewer`, `Trips.Islands.C119_reclassify`, `Trips.Heights.C120_lifted`, `Trips.Heights.C120_degrees`, `Trips.Heights.C120_zoomed`, `Trips.Heights.C120_curvature_sum`, `Trips.Heights.C120_slope_sum`, `Trips.Bandwise.C121_order`, `Trips.Bandwise.C121_own_statistics`, `Trips.Bandwise.C121_repeated`, `Trips.Bandwise.C121_groups`, `Trips.Bandwise.C121_minband`, `Trips.Conversions.C122_detour`, `Trips.Conversions.C122_there_and_back`, `Trips.Conversions.C122_again`, `Trips.Conversions.C122_order`, `Trips.Conversions.C122_null_back`, `Trips.Conversions.C122_cleared`, `Trips.Conversions.C122_lost`, `Trips.Forecasts.C123_points`, `Trips.Forecasts.C123_nan_cells`, `Trips.Forecasts.C123_infinite_cells`, `Trips.Readings.C124_points`, `Trips.Readings.C124_axes`, `Trips.Readings.C124_bands`, `Trips.Readings.C124_stacks`, `Trips.Readings.C124_pieces`, `Trips.Readings.C124_somewhere`, `Trips.Samples.C125_calculated`, `Trips.Probes.C126_set_null`, `Trips.Probes.C126_astype`, `Trips.Probes.C126_null_value`, `Trips.Probes.C126_where_partial`, `Trips.Probes.C126_reclassify_partial`, `Trips.Frames.C127_pad`, `Trips.Frames.C127_clip_box`

**Quot.sound, propext** (57):
`Proximity.C41_euclidean_not_nearest`, `Proximity.C42_integer_fill_phantom_target`, `Proximity.C42_euclidean_depends_on_chunks`, `Mosaic.C10_first`, `Mosaic.C10_last`, `Mosaic.C10_valid_null_value_is_lost`, `Mosaic.C12_sum_of_seven_loses_values`, `Mosaic.C12_sum_equal_to_null_is_null`, `Mosaic.C13_tree_reduction`, `Nulls.C19_literal_order_independent`, `Nulls.C19_order_independent_partial`, `Nulls.C14_rejected`, `Grid.C22_geographic_crs`, `Grid.C45_quadrants`, `Grid.C45_sizes`, `Bands.C24_rejected`, `Bands.C46_get_bands`, `Bands.C47_band_concat`, `Remap.C25_array_types`, `Remap.C26_reclassify`, `Remap.C26_array_types`, `Remap.C26_mapping_after`, `Remap.C26_shape`, `Remap.C26_second_call_differs`, `Focal.C30_circle`, `Focal.C30_rectangle`, `Zonal.aggregates_exists`, `Utils.C40_2d`, `Rasterize.C33_rio_values`, `Rasterize.C33_defaults`, `Reduce.C55_masked`, `Reduce.C55_unmasked_partial`, `Reduce.C55_unmasked_bands`, `Reduce.C55_unique_dtype`, `Reduce.C55_rejected`, `Reduce.C56_masked`, `Reduce.C56_unmasked`, `Reduce.C56_unique_dtype`, `Reduce.C57_rejected`, `Reduce.C57_infinities`, `Morph.C58_infinity`, `Morph.C58_default_null_value_in_use`, `Morph.C59_closing_loses_edges`, `Create.C61_full`, `Create.C61_accepted`, `Create.C61_errors`, `Create.C61_zeros_ones`, `Create.C61_mask_changes_dtype`, `Create.C61_value_is_null_value`, `Files.C65_overviews`, `Polygons.C67_accepted`, `Polygons.C67_errors`, `PredictVector.C78_wrong_outputs`, `PredictVector.C78_wrong_rows`, `Layers.C83_load`, `Layers.C83_attributes_lost`, `Layers.C83_to_crs_fails`

**no axioms** (2):
`Vector.C39_read_empty`, `Files.C64_extension`

**propext** (9):
`Nulls.C19_unfitting_literals_ignored`, `Nulls.C19_dtype_order_matters`, `Stats.C38_argmin_returns_nan`, `Focal.C29_float_dtype`, `Clip.C34_clip_box`, `Layers.C82_names_repeat`, `Layers.C82_no_features`, `Layers.C83_order`, `Kwargs.C107_pack_errors`

