{
 "claims": [
  {
   "property": "C01",
   "status": "partial",
   "theorems": [
    "Verif.Props.C01_roundtrip_partial",
    "Verif.Props.C01_negation",
    "Verif.Props.C01_antimeridian_reports_zero"
   ],
   "note": "Proved for longitudes in the open interval (-180,180); false at exactly 180 in exact arithmetic (reported as 0): negation proved. With rounding, where pi is not represented, 180 comes back near 180 or -180 (C65_antimeridian_code)."
  },
  {
   "property": "C02",
   "status": "proved",
   "theorems": [
    "Verif.Props.C02_roundtrip_xyz"
   ],
   "note": "Exact real arithmetic."
  },
  {
   "property": "C03",
   "status": "proved",
   "theorems": [
    "Verif.Props.C03_range"
   ],
   "note": "Any input including non-numbers."
  },
  {
   "property": "C04",
   "status": "proved",
   "theorems": [
    "Verif.Props.C04_lon_isNum_iff",
    "Verif.Props.C04_lat_isNum",
    "Verif.Props.C04_convex_lat_isNum"
   ],
   "note": "Exact real arithmetic; with rounding see C57."
  },
  {
   "property": "C05",
   "status": "proved",
   "theorems": [
    "Verif.Props.C05_lon_scale",
    "Verif.Props.C05_lat_bracket"
   ],
   "note": ""
  },
  {
   "property": "C06",
   "status": "proved",
   "theorems": [
    "Verif.Props.C06_copies_agree"
   ],
   "note": "Finite inputs; np.sign and the C sign differ on NaN only."
  },
  {
   "property": "C07",
   "status": "partial",
   "theorems": [
    "Verif.Props.C07_far_side_partial",
    "Verif.Props.C07_negation",
    "Verif.Props.C07_negation_rounded"
   ],
   "note": "Proved off the 180-degree meridian; false exactly on it (pixel reported at longitude 0): negation proved, also with rounding, for the whole grid interpolator: the pixel half way between longitudes a and -a."
  },
  {
   "property": "C08",
   "status": "proved",
   "theorems": [
    "Verif.Props.C08_extrapolation_line",
    "Verif.Props.C08_refuses",
    "Verif.Props.lineThrough_unique"
   ],
   "note": "Exact arithmetic in any ordered field for the value; the refusals in any arithmetic."
  },
  {
   "property": "C09",
   "status": "proved",
   "theorems": [
    "Verif.Props.C09_fill_cols",
    "Verif.Props.C09_reaches_edges"
   ],
   "note": "Any arithmetic; reaching the edges in exact arithmetic."
  },
  {
   "property": "C10",
   "status": "proved",
   "theorems": [
    "Verif.Props.C10_fill_rows",
    "Verif.Props.C10_partial_chunk_raises"
   ],
   "note": "Any arithmetic; whole chunks with at least two tie rows each. A last chunk that is not whole raises IndexError."
  },
  {
   "property": "C11",
   "status": "proved",
   "theorems": [
    "Verif.Props.C11_unknown_dimension"
   ],
   "note": "Any arithmetic; for every argument list with an unknown name the state is unchanged."
  },
  {
   "property": "C12",
   "status": "proved",
   "theorems": [
    "Verif.Props.C12_fills_commute",
    "Verif.Props.C12_fill_borders"
   ],
   "note": "Exact arithmetic including the non-number."
  },
  {
   "property": "C13",
   "status": "proved",
   "theorems": [
    "Verif.Props.C13_shape",
    "Verif.Props.C13_tie_points",
    "Verif.Props.interpolating_linSeg"
   ],
   "note": "Shape in any arithmetic; tie points in exact arithmetic with data that are numbers, for every spline library whose splines interpolate. interpolate() leaves positions and data unchanged in the model, so repeated calls agree."
  },
  {
   "property": "C14",
   "status": "proved",
   "theorems": [
    "Verif.Props.C14_affine",
    "Verif.Props.interpolate_affine"
   ],
   "note": "Exact arithmetic; first-order spline = straight segments; fine rows in whole chunks with at least two tie rows each (otherwise the fills or the interpolation raise)."
  },
  {
   "property": "C15",
   "status": "proved",
   "theorems": [
    "Verif.Props.C15_modis5kmto1km",
    "Verif.Props.C15_modis1kmto500m",
    "Verif.Props.C15_modis1kmto250m"
   ],
   "note": "Exact arithmetic with a non-number, any content, any spline library, any number of cores and any completion order."
  },
  {
   "property": "C16",
   "status": "partial",
   "theorems": [
    "Verif.Props.C16_modis5kmto1km_partial",
    "Verif.Props.C16_modis1kmto500m_partial",
    "Verif.Props.C16_modis1kmto250m_partial",
    "Verif.Props.C16_negation"
   ],
   "note": "True when all lon/lat are numbers (partial theorems, exact arithmetic). False for contents with non-numbers; negation proved with a witness: NaN of a scan spoils the last line of the previous scan."
  },
  {
   "property": "C17",
   "status": "partial",
   "theorems": [
    "Verif.Props.C17_modis1kmto500m_partial",
    "Verif.Props.C17_modis1kmto250m_partial",
    "Verif.Props.C17_negation_500m",
    "Verif.Props.C17_negation_250m"
   ],
   "note": "True when all lon/lat are numbers. False for contents with non-numbers; negation proved: NaN of a scan spoils the last line of the previous scan with one core, not across pieces."
  },
  {
   "property": "C18",
   "status": "proved",
   "theorems": [
    "Verif.Props.C18_scene_splits",
    "Verif.Props.C18_number_of_pieces"
   ],
   "note": "All natural numbers of lines, scan lengths and cores (at least one line, one line per scan, one core)."
  },
  {
   "property": "C19",
   "status": "proved",
   "theorems": [
    "Verif.Props.C19_any_schedule"
   ],
   "note": "Any worker function and any completion order; the pool is modelled as running every piece exactly once."
  },
  {
   "property": "C20",
   "status": "proved",
   "theorems": [
    "Verif.Props.C20_line_by_line",
    "Verif.Props.C20_tie_points"
   ],
   "note": "Exact arithmetic; tie points for every library whose cubic splines interpolate, up to the coordinate conversion."
  },
  {
   "property": "C21",
   "status": "partial",
   "theorems": [
    "Verif.Props.C21_negation"
   ],
   "note": "False of the code: generic_modis5kmto1km raises on every input; negation proved for all inputs."
  },
  {
   "property": "C22",
   "status": "proved",
   "theorems": [
    "Verif.Props.C22_sizes",
    "Verif.Props.C22_positions",
    "Verif.Props.C22_tiling"
   ],
   "note": "Any number of dimensions and any chunk sizes (including empty chunks): sizes, containment, enumeration without repetition, every element in exactly one slice tuple."
  },
  {
   "property": "C23",
   "status": "partial",
   "theorems": [
    "Verif.Props.C23_grid_chunked",
    "Verif.Props.C23_grid_partial",
    "Verif.Props.C23_spline_chunked",
    "Verif.Props.C23_spline_partial",
    "Verif.Props.C23_negation"
   ],
   "note": "False of the code for fine points other than 0,1,2,...: negation proved (fine point 1/2). Proved exactly what chunking computes for any fine points (the unchunked result at 0..n-1), hence equality for fine points 0..n-1; grid interpolator for any arithmetic and method, spline interpolator in exact arithmetic."
  },
  {
   "property": "C24",
   "status": "proved",
   "theorems": [
    "Verif.Props.C24_each",
    "Verif.Props.C24_shape",
    "Verif.Props.C24_grid_chunks",
    "Verif.Props.C24_spline_chunks",
    "Verif.Props.C24_dims"
   ],
   "note": "Any number of arrays, any shape; chunked equals unchunked for interpolate_to_shape."
  },
  {
   "property": "C25",
   "status": "proved",
   "theorems": [
    "Verif.Props.C25_argument_count",
    "Verif.Props.C25_arguments",
    "Verif.Props.C25_tie_points",
    "Verif.Props.C25_outside",
    "Verif.Props.C25_chunks"
   ],
   "note": "Linear method, at least two positions per dimension, exact real arithmetic; scipy's RegularGridInterpolator is modelled from its documented behaviour."
  },
  {
   "property": "C26",
   "status": "partial",
   "theorems": [
    "Verif.Props.C26_partial",
    "Verif.Props.C26_negation"
   ],
   "note": "False of the code: the token omits the interpolator class and its init options, negation proved for every tokenize function (extrapolating vs filling interpolator of the same data). Proved when equal tie points and values imply equal options and tokenize separates the inputs."
  },
  {
   "property": "C27",
   "status": "proved",
   "theorems": [
    "Verif.Props.C27_safe_initialised"
   ],
   "note": "Any arithmetic; memory accesses checked against the views; initial memory content universally quantified."
  },
  {
   "property": "C28",
   "status": "proved",
   "theorems": [
    "Verif.Props.C28_scan_independent"
   ],
   "note": "Any arithmetic (bit for bit)."
  },
  {
   "property": "C29",
   "status": "proved",
   "theorems": [
    "Verif.Props.C29_locality",
    "Verif.Props.C29_cell_in_scan"
   ],
   "note": "Any arithmetic (bit for bit)."
  },
  {
   "property": "C30",
   "status": "partial",
   "theorems": [
    "Verif.Props.C30_lazy_eager",
    "Verif.Props.C30_lazy_eager_simple",
    "Verif.Props.C30_not_whole_scans",
    "Verif.Props.C30_not_whole_scans_simple",
    "Verif.Props.C30_negation_small_chunk",
    "Verif.Props.C30_negation_small_chunk_simple",
    "Verif.Props.C30_negation_simple_width"
   ],
   "note": "Equality of lazy and eager results, and of declared and computed chunks, proved for every chunking whose first row chunk holds a whole scan (simple interpolator: 1354 columns). False of the code otherwise, negations proved: a first row chunk smaller than a scan raises ZeroDivisionError, and the simple interpolator declares 1354*f columns whatever the input width."
  },
  {
   "property": "C31",
   "status": "partial",
   "theorems": [
    "Verif.Props.C31_rows_1km_partial",
    "Verif.Props.C31_cols_1km_partial",
    "Verif.Props.C31_5km_to_1km_partial",
    "Verif.Props.C31_negation_rows",
    "Verif.Props.C31_negation_cols"
   ],
   "note": "Proved for 1km->500m, 1km->250m, 5km->1km. False for 5km->500m and 5km->250m: negations proved."
  },
  {
   "property": "C32",
   "status": "proved",
   "theorems": [
    "Verif.Props.C32_tie_points",
    "Verif.Props.C32_tie_points_satz"
   ],
   "note": "Exact real arithmetic."
  },
  {
   "property": "C33",
   "status": "proved",
   "theorems": [
    "Verif.Props.C33_constant"
   ],
   "note": "Exact real arithmetic."
  },
  {
   "property": "C34",
   "status": "partial",
   "theorems": [
    "Verif.Props.C34_coefficients_partial",
    "Verif.Props.C34_exact",
    "Verif.Props.C34_wide",
    "Verif.Props.C34_negation",
    "Verif.Props.C34_horizon"
   ],
   "note": "False for two zero angles and for two angles of 90 degrees: negations proved. C34_exact says for every two real angles exactly when each coefficient is a number (exact arithmetic); for pixels of 1 and 5 km this is so for all angles up to 89.8 degrees in magnitude, not both zero (C34_wide)."
  },
  {
   "property": "C35",
   "status": "partial",
   "theorems": [
    "Verif.Props.C35_exact",
    "Verif.Props.C35_public",
    "Verif.Props.C35_refused",
    "Verif.Props.C35_width_5km_partial",
    "Verif.Props.C35_negation_wide",
    "Verif.Props.C35_negation_narrow",
    "Verif.Props.C35_negation_narrow_value"
   ],
   "note": "5 km widths other than 0, 270, 271 are refused. False for 1 km (any width accepted: out-of-bounds write or undefined result) and for empty 5 km input: negations proved. C35_exact says for all resolutions, widths and shapes of the three arrays exactly which calls stay inside the arrays."
  },
  {
   "property": "C36",
   "status": "proved",
   "theorems": [
    "Verif.Props.C36_bilinear",
    "Verif.Props.C36_affine",
    "Verif.Props.C36_tie_columns"
   ],
   "note": "Exact real arithmetic; map_coordinates(order=1, mode=nearest) modelled as bilinear with clamped coordinates."
  },
  {
   "property": "C37",
   "status": "proved",
   "theorems": [
    "Verif.Props.C37_safe_initialised",
    "Verif.Props.C37_scan_independent"
   ],
   "note": "Any arithmetic and any behaviour of map_coordinates."
  },
  {
   "property": "C38",
   "status": "proved",
   "theorems": [
    "Verif.Props.C38_agree",
    "Verif.Props.opposite_angles_zero"
   ],
   "note": "Exact real arithmetic; opposite_angles_zero shows the hypothesis can be met."
  },
  {
   "property": "C39",
   "status": "partial",
   "theorems": [
    "Verif.Props.C39_whole_scans",
    "Verif.Props.C39_whole_scans_simple",
    "Verif.Props.C39_negation",
    "Verif.Props.C39_negation_value",
    "Verif.Props.C39_negation_simple"
   ],
   "note": "False of the code: such arrays are accepted, and for every conversion and every remainder the trailing rows are uninitialised memory (negations proved). Proved besides: the rows of the whole scans are right, i.e. those of the arrays cut after the last whole scan, for any arithmetic and initial memory."
  },
  {
   "property": "C40",
   "status": "proved",
   "theorems": [
    "Verif.Props.C40_shape",
    "Verif.Props.C40_not_multiple",
    "Verif.Props.C40_inconsistent"
   ],
   "note": "Any arithmetic and contents; xarray's interp is modelled from its documented behaviour (scipy interp1d, linear)."
  },
  {
   "property": "C41",
   "status": "partial",
   "theorems": [
    "Verif.Props.C41_bilinear_partial",
    "Verif.Props.C41_tie",
    "Verif.Props.C41_between",
    "Verif.Props.C41_scan_local_partial",
    "Verif.Props.C41_negation_cell",
    "Verif.Props.C41_negation_scan"
   ],
   "note": "False of the code for contents with NaN (a NaN tie spoils the pixel at the next tie, also across scans): negations proved. Proved for arrays of numbers in exact arithmetic (bilinear of the own cell, tie values, bounds), and for any content that only the own scan's ties matter except in the first pixel row of a later scan."
  },
  {
   "property": "C42",
   "status": "partial",
   "theorems": [
    "Verif.Props.C42_choice",
    "Verif.Props.C42_shapes",
    "Verif.Props.C42_direct",
    "Verif.Props.C42_cartesian",
    "Verif.Props.C42_tie_points",
    "Verif.Props.C42_negation"
   ],
   "note": "Choice of path proved for arrays with any content (NaN skipped); values and tie points for arrays of numbers, exact real arithmetic; with NaN the tie point claim is false (negation proved)."
  },
  {
   "property": "C43",
   "status": "partial",
   "theorems": [
    "Verif.Props.C43_grid_single",
    "Verif.Props.C43_grid_errors",
    "Verif.Props.C43_nodes_partial",
    "Verif.Props.C43_grid_partial",
    "Verif.Props.C43_negation_nan",
    "Verif.Props.C43_negation_grid_1d"
   ],
   "note": "Proved for 1 to 4 dimensions, any bounds lo != hi, any orders >= 2 (fewer than 2^31 nodes), values that are numbers, any schedule. False with NaN values (a NaN spoils the neighbouring node) and for the grid attribute in one dimension (TypeError): negations proved."
  },
  {
   "property": "C44",
   "status": "proved",
   "theorems": [
    "Verif.Props.C44_exact"
   ],
   "note": "Any point (also where the conversion to int is undefined: any integer will do), any grid with fewer than 2^31 nodes, exact arithmetic."
  },
  {
   "property": "C45",
   "status": "partial",
   "theorems": [
    "Verif.Props.C45_in_bounds",
    "Verif.Props.C45_between",
    "Verif.Props.C45_negation_one_node",
    "Verif.Props.C45_negation_huge",
    "Verif.Props.C45_negation_dimensions",
    "Verif.Props.C45_negation_values"
   ],
   "note": "In bounds for any arithmetic and content and any integer from the conversion, with fewer than 2^31 nodes and points; range in exact arithmetic. False for larger grids (int overflow, negation proved). Each further hypothesis is shown necessary: one node, missing values, extra coordinate are not rejected and read out of bounds."
  },
  {
   "property": "C46",
   "status": "proved",
   "theorems": [
    "Verif.Props.C46_schedule",
    "Verif.Props.C46_own_row",
    "Verif.Props.C46_too_many",
    "Verif.Props.C46_negation_points",
    "Verif.Props.C46_negation_no_dimension"
   ],
   "note": "Schedule independence for all shapes and contents. Beyond the property: 2^31 points or points without coordinates return uninitialised memory."
  },
  {
   "property": "C47",
   "status": "partial",
   "theorems": [
    "Verif.Props.C47_linear_partial",
    "Verif.Props.C47_before_first",
    "Verif.Props.C47_accepted",
    "Verif.Props.C47_negation_pandas",
    "Verif.Props.C47_negation_nan"
   ],
   "note": "False of the code with pandas 1.0 or later, where every call fails (negation proved; setup.py does not bound the version), and for NaN tie data (negation proved). Proved for older pandas, increasing labels from 0 and numbers, exact arithmetic; pandas itself is modelled by its documented behaviour. C47_accepted says for any arithmetic which calls succeed, with which shape, and how the others fail."
  },
  {
   "property": "C48",
   "status": "partial",
   "theorems": [
    "Verif.Props.C48_exact",
    "Verif.Props.C48_unknown",
    "Verif.Props.C48_negation_columns",
    "Verif.Props.C48_negation_resolutions"
   ],
   "note": "False of the code: fewer than two columns, or resolutions 1000->1000 and 5000->1000, access memory out of bounds. Negations proved. C48_exact says for all resolutions and all shapes of longitudes and latitudes exactly which calls stay inside the arrays; C37 gives the values for the public ones."
  },
  {
   "property": "C49",
   "status": "proved",
   "theorems": [
    "Verif.Props.C49_outside"
   ],
   "note": "Every library whose splines take the given values at the given positions; exact arithmetic. FITPACK's bispev moving positions into the tie range is a modelling assumption."
  },
  {
   "property": "C50",
   "status": "proved",
   "theorems": [
    "Verif.Props.C50_rows_per_scan"
   ],
   "note": ""
  },
  {
   "property": "C51",
   "status": "partial",
   "theorems": [
    "Verif.Props.C51_whole_scans",
    "Verif.Props.C51_sizes",
    "Verif.Props.C51_never_kept",
    "Verif.Props.C51_negation"
   ],
   "note": "False of the code: chunks that already are whole scans and full lines are changed (negation proved); the code never returns consistent arrays unchanged (C51_never_kept). Contents, whole scans, single column chunk and the exact new sizes are proved."
  },
  {
   "property": "C52",
   "status": "proved",
   "theorems": [
    "Verif.Props.C52_modis5kmto1km",
    "Verif.Props.C52_modis5kmto1km_ties",
    "Verif.Props.C52_modis1kmto500m",
    "Verif.Props.C52_modis1kmto250m"
   ],
   "note": "Exact arithmetic, tie points that are numbers, cores=1 (C17 carries it to more cores). Spline library: order 1 piecewise linear, order 3 gives numbers and passes through its points. Tie points themselves: off the poles and the 180-degree meridian (C01)."
  },
  {
   "property": "C53",
   "status": "partial",
   "theorems": [
    "Verif.Props.C53_numpy_first_error",
    "Verif.Props.C53_first_not_2d",
    "Verif.Props.C53_first_no_array",
    "Verif.Props.C53_simple_numpy_first",
    "Verif.Props.C53_lazy_not_2d",
    "Verif.Props.C53_numpy_not_2d",
    "Verif.Props.C53_missing_resolution",
    "Verif.Props.C53_no_array",
    "Verif.Props.C53_not_2d",
    "Verif.Props.C53_numpy",
    "Verif.Props.C53_dask",
    "Verif.Props.C53_containers_partial",
    "Verif.Props.C53_numpy_first",
    "Verif.Props.C53_simple_numpy",
    "Verif.Props.C53_simple_dask",
    "Verif.Props.C53_negation_numpy_dataarray",
    "Verif.Props.C53_negation_simple_dataarray",
    "Verif.Props.C53_mixed_value",
    "Verif.Props.C53_negation_mixed"
   ],
   "note": "Any arithmetic. Proved for numpy arrays and for every mixture of dask arrays and DataArrays of dask arrays, and the refusals. False of the code for a DataArray of a numpy array (AttributeError) and for dask longitudes beside numpy latitudes, where every block gets the latitudes of the first scans (exact value and negation proved)."
  },
  {
   "property": "C54",
   "status": "proved",
   "theorems": [
    "Verif.Props.C54_cell_value",
    "Verif.Props.C54_between",
    "Verif.Props.C54_fill",
    "Verif.Props.C54_extrapolate",
    "Verif.Props.C54_nan"
   ],
   "note": "Exact arithmetic in any ordered field; at least two positions per dimension; scipy's RegularGridInterpolator is modelled from its documented behaviour."
  },
  {
   "property": "C55",
   "status": "proved",
   "theorems": [
    "Verif.Props.C55_descending"
   ],
   "note": "At least two positions per dimension, exact arithmetic for the positions, any content of the array; fine points unchunked."
  },
  {
   "property": "C56",
   "status": "proved",
   "theorems": [
    "Verif.Props.C56_grid",
    "Verif.Props.C56_spline",
    "Verif.Props.C56_single_array"
   ],
   "note": "Positions may contain non-numbers. The refusals are those of the modelled scipy classes."
  },
  {
   "property": "C57",
   "status": "proved",
   "theorems": [
    "Verif.Props.C57_lon_isNum_iff",
    "Verif.Props.C57_lat_isNum",
    "Verif.Props.C57_vii_lat_isNum",
    "Verif.Props.C57_cy_lat_isNum",
    "Verif.Props.C57_earth",
    "Verif.Props.C57_mixed"
   ],
   "note": "Binary floating point with unbounded exponent, every operation rounded to nearest; C57_mixed: float32 arrays with double constants and functions."
  },
  {
   "property": "C58",
   "status": "partial",
   "theorems": [
    "Verif.Props.C58_collapse",
    "Verif.Props.C58_negation",
    "Verif.Props.C58_mixed_negation",
    "Verif.Props.C58_sign_partial"
   ],
   "note": "False of the code: points within about 2^(-p/2) radians of the meridian 0 (780 m in float32, 2.4 cm in double) all get the longitude 0, negation proved for every precision. Proved: the sign is never wrong."
  },
  {
   "property": "C59",
   "status": "proved",
   "theorems": [
    "Verif.Props.C59_range",
    "Verif.Props.C59_mixed"
   ],
   "note": "Given that the library's acos and asin return values in the (rounded) ranges of the functions; correctly rounded functions do (angleRange_correct)."
  },
  {
   "property": "C60",
   "status": "partial",
   "theorems": [
    "Verif.Props.C60_grid",
    "Verif.Props.C60_modis_5km",
    "Verif.Props.C60_modis_5km_mixed",
    "Verif.Props.C60_vii_partial",
    "Verif.Props.C60_vii_negation",
    "Verif.Props.C60_multilinear_corners_partial",
    "Verif.Props.C60_multilinear_negation"
   ],
   "note": "Proved for linear grid interpolation and for MODIS 5 km to 1 km (numeric ties and coefficients). False of the code for VII with ties of very different size (negation for every precision; proved for factors 2^q and representable differences) and for interior nodes in multilinear interpolation (negation in double precision: fifty nodes 0..49, node 1; proved for the corners)."
  },
  {
   "property": "C61",
   "status": "proved",
   "theorems": [
    "Verif.Props.C61_grid",
    "Verif.Props.C61_vii",
    "Verif.Props.C61_multilinear",
    "Verif.Props.C61_modis_given_weights",
    "Verif.Props.C61_modis_mixed_given_weights",
    "Verif.Props.C61_modis_mixed"
   ],
   "note": "Constants 30 (grid), 60 (VII), 6 per dimension (multilinear), 12 (MODIS with the weights as computed). C61_modis_mixed compares with the exact weights, for zenith angles of at most 70 degrees that differ by at least 0.06 degrees, or by at least 0.01 degrees within 9 degrees of nadir, or are equal and not zero."
  },
  {
   "property": "C62",
   "status": "proved",
   "theorems": [
    "Verif.Props.C62_coefficients",
    "Verif.Props.C62_coefficients_mixed"
   ],
   "note": "Binary floating point with unbounded exponent, one precision of at least 12 bits, or float32 variables with double constants and functions; library accurate to 0.1 percent (correctly rounded functions are: libAcc_correct)."
  },
  {
   "property": "C63",
   "status": "partial",
   "theorems": [
    "Verif.Props.C63_float32",
    "Verif.Props.C63_negation_float64",
    "Verif.Props.C63_accepted_iff",
    "Verif.Props.C63_dimensions",
    "Verif.Props.C63_width",
    "Verif.Props.C63_simple"
   ],
   "note": "True of the simple interpolation. False of the code with the zenith angle: the coordinate arrays are always float32, so every float64 call raises ValueError; negation proved for all inputs, and exactly float32 arguments are accepted."
  },
  {
   "property": "C64",
   "status": "proved",
   "theorems": [
    "Verif.Props.C64_back_error"
   ],
   "note": "Binary floating point with unbounded exponent, one precision; library with relative error eps (correctly rounded functions: libRel_correct). Constants not optimal; sqrt(eps) is the true order near longitude 0 and 180 (C58)."
  },
  {
   "property": "C65",
   "status": "proved",
   "theorems": [
    "Verif.Props.C65_roundtrip",
    "Verif.Props.C65_roundtrip_code",
    "Verif.Props.C65_antimeridian",
    "Verif.Props.C65_antimeridian_code",
    "Verif.Props.C65_roundtrip_mixed",
    "Verif.Props.ieee_lon_bound",
    "Verif.Props.ieee_lat_bound"
   ],
   "note": "The longitude is bounded off the poles only (|lat| <= 90(1-4 eps), mixed precision 90(1-2u-4 eps))."
  },
  {
   "property": "C66",
   "status": "proved",
   "theorems": [
    "Verif.Props.C66_modis_5km_ties"
   ],
   "note": "Float32 arrays and double computation, with the code's radius and threshold; IEEE numbers by ieee_lon_bound and ieee_lat_bound."
  },
  {
   "property": "C67",
   "status": "proved",
   "theorems": [
    "Verif.Props.C67_geo_grid"
   ],
   "note": "Linear method; binary floating point with unbounded exponent, one precision. The alternative (longitude 0) does occur: C07_negation_rounded."
  },
  {
   "property": "C68",
   "status": "proved",
   "theorems": [
    "Verif.Props.C68_coefficients",
    "Verif.Props.C68_weights"
   ],
   "note": "Float32 variables with double constants and functions; unbounded exponent. The constants are not optimal; prec_ieee gives eps = 2^-24 for IEEE numbers and correctly rounded functions. Covered are angles (in degrees) of at most 70 that differ by at least 0.06 degrees, or by at least 0.01 degrees within 9 degrees of nadir, or are equal and not zero; not covered are smaller differences."
  },
  {
   "property": "C69",
   "status": "proved",
   "theorems": [
    "Verif.Props.C69_modis_pixel"
   ],
   "note": "Float32 arrays and double computation with the code's radius and threshold; zenith angles of at most 70 degrees that differ by at least 0.06 degrees, or by at least 0.01 degrees within 9 degrees of nadir, or are equal and not zero; eta' <= 1/100."
  },
  {
   "property": "C70",
   "status": "proved",
   "theorems": [
    "Verif.Props.C70_choice",
    "Verif.Props.C70_direct",
    "Verif.Props.C70_cartesian"
   ],
   "note": "Binary floating point with unbounded exponent, one precision; numbers only (no NaN). The sphere has the radius as the program represents it."
  },
  {
   "property": "C71",
   "status": "proved",
   "theorems": [
    "Verif.Props.C71_astype",
    "Verif.Props.C71_float64",
    "Verif.Props.C71_integer",
    "Verif.Props.C71_no_nan",
    "Verif.Props.C71_integer_ties",
    "Verif.Props.C71_float32"
   ],
   "note": "Integers of any size (the conversion of a number outside the range of the type is not modelled; C71_integer shows that results stay in the range of the data); linear method for the values."
  },
  {
   "property": "C72",
   "status": "partial",
   "theorems": [
    "Verif.Props.C72_1d",
    "Verif.Props.C72_2d",
    "Verif.Props.C72_negation"
   ],
   "note": "False of the code: integer data is truncated in one dimension and kept as doubles in two; negation proved. C72_1d and C72_2d say exactly what happens."
  },
  {
   "property": "C73",
   "status": "partial",
   "theorems": [
    "Verif.Props.C73_unsigned",
    "Verif.Props.C73_decreasing_partial",
    "Verif.Props.C73_negation"
   ],
   "note": "False of the code: the difference of unsigned data wraps around, so data that increases is extrapolated wrongly; negation proved. C73_unsigned gives the exact result, C73_decreasing_partial the case in which it is right. Numpy's conversion rules (unsigned difference, double product) are part of the model."
  },
  {
   "property": "C74",
   "status": "partial",
   "theorems": [
    "Verif.Props.C71_integer",
    "Verif.Props.C71_integer_ties",
    "Verif.Props.C74_negation"
   ],
   "note": "False of the code in double precision (negation proved for every rounding to nearest); true in exact arithmetic (C71_integer) and at the tie positions (C71_integer_ties)."
  },
  {
   "property": "C75",
   "status": "proved",
   "theorems": [
    "Verif.Props.C75_simple_pixel",
    "Verif.Props.C75_simple_coordinate",
    "Verif.Props.mcRounded_ok",
    "Verif.Props.prec_double"
   ],
   "note": "Float32 arrays and double computation (float64 arrays: both formats double, prec_double) with the code's radius and threshold; map_coordinates is any function accurate to rho on each cell (mcRounded_ok: there is one); eta' <= 1/100."
  },
  {
   "property": "C76",
   "status": "proved",
   "theorems": [
    "Verif.Props.C76_modis5kmto1km",
    "Verif.Props.C76_modis1kmto500m",
    "Verif.Props.C76_modis1kmto250m",
    "Verif.Props.C76_metop20kmto1km"
   ],
   "note": "Binary floating point with unbounded exponent, one precision."
  },
  {
   "property": "C77",
   "status": "proved",
   "theorems": [
    "Verif.Props.C77_modis5kmto1km",
    "Verif.Props.C77_modis5kmto1km_ties",
    "Verif.Props.C77_modis1kmto500m",
    "Verif.Props.C77_modis1kmto250m",
    "Verif.Props.C77_modis1kmto500m_cores",
    "Verif.Props.C77_modis1kmto250m_cores",
    "Verif.Props.splAcc_splRnd"
   ],
   "note": "Binary floating point with unbounded exponent, one precision; the spline library is any function accurate to rho on the positions of the preset (splAcc_splRnd: there is one); t <= 1/100; 1 km presets on any number of cores and any schedule."
  },
  {
   "property": "C78",
   "status": "proved",
   "theorems": [
    "Verif.Props.C78_declared",
    "Verif.Props.C78_declared_simple",
    "Verif.Props.C78_float32",
    "Verif.Props.C78_negation_float64",
    "Verif.Props.C78_simple"
   ],
   "note": "Two-dimensional dask arrays; C78_negation_float64 is the lazy side of the negation of C63."
  },
  {
   "property": "C79",
   "status": "proved",
   "theorems": [
    "Verif.Props.Version.C79_clean",
    "Verif.Props.Version.C79_valid",
    "Verif.Props.Version.C79_untagged",
    "Verif.Props.Version.C79_order",
    "Verif.Props.Version.C79_identifies"
   ],
   "note": "PEP 440 in canonical form. C79_identifies for tags without a local part; C79_order for any tag."
  },
  {
   "property": "C80",
   "status": "proved",
   "theorems": [
    "Verif.Props.Version.C80_tagged",
    "Verif.Props.Version.C80_untagged",
    "Verif.Props.Version.C80_sound",
    "Verif.Props.Version.C80_roundtrip",
    "Verif.Props.Version.C80_checkout",
    "Verif.Props.Version.C80_checkout_untagged",
    "Verif.Props.Version.C80_checkout_commits",
    "Verif.Props.Version.C80_branch_named",
    "Verif.Props.Version.C80_branch_detached",
    "Verif.Props.Version.C80_branch_error"
   ],
   "note": "Running git is a function from directory and arguments to output and return code; ASCII digits and spaces."
  },
  {
   "property": "C81",
   "status": "partial",
   "theorems": [
    "Verif.Props.Version.C81_release",
    "Verif.Props.Version.C81_candidates",
    "Verif.Props.Version.C81_picked",
    "Verif.Props.Version.C81_final",
    "Verif.Props.Version.C81_none",
    "Verif.Props.Version.C81_negation_latest"
   ],
   "note": "True for one version tag (C81_release). False of the code for several: the first in the order of strings is taken, so 1.9 instead of 1.9.1 at the same commit; negation proved. C81_picked says exactly which one; a release is preferred to its release candidates (C81_final)."
  },
  {
   "property": "C82",
   "status": "partial",
   "theorems": [
    "Verif.Props.Version.C82_total_partial",
    "Verif.Props.Version.C82_no_git",
    "Verif.Props.Version.C82_no_file",
    "Verif.Props.Version.C82_negation_parentdir",
    "Verif.Props.Version.C82_negation_raises",
    "Verif.Props.Version.C82_parentdir"
   ],
   "note": "False of the code: the configured directory prefix is the string 'None', so the version in the directory name is never found, and if git show fails after git describe succeeded an AttributeError is raised (on import of the package); negations proved. C82_total_partial: it returns if git show and git rev-list answer; C82_no_git: and if git does not run at all."
  },
  {
   "property": "C83",
   "status": "partial",
   "theorems": [
    "Verif.Props.Version.C83_release",
    "Verif.Props.Version.C83_unknown",
    "Verif.Props.Version.C83_error",
    "Verif.Props.Version.C83_valid",
    "Verif.Props.Version.C83_pre",
    "Verif.Props.Version.C83_negation_post",
    "Verif.Props.Version.C83_negation_pre",
    "Verif.Props.Version.C83_pre_empty",
    "Verif.Props.Version.C83_untagged",
    "Verif.Props.Version.C83_dirty",
    "Verif.Props.Version.C83_negation_dirty_pre"
   ],
   "note": "False of the code in pep440-pre, which never shows changes of the working tree, and for tags of post-releases (pep440-post and pep440-old give TAG.postM.postN, pep440-pre raises for TAG.postM.devK); negations proved. True for tags without post- and development part (C83_valid, C83_pre). The configured style is pep440 (C79)."
  },
  {
   "property": "C84",
   "status": "proved",
   "theorems": [
    "Verif.Props.Version.C84_keywords",
    "Verif.Props.Version.C84_missing",
    "Verif.Props.Version.C84_repository"
   ],
   "note": "Lines end with a line feed; ASCII spaces; reading errors after opening the file are left out."
  },
  {
   "property": "C85",
   "status": "proved",
   "theorems": [
    "Verif.Props.C85_exact",
    "Verif.Props.C85_refused"
   ],
   "note": "Exact arithmetic, any conversion to int. The refusal holds for any arithmetic, once values are set."
  },
  {
   "property": "C86",
   "status": "partial",
   "theorems": [
    "Verif.Props.C86_grid",
    "Verif.Props.C86_kept",
    "Verif.Props.C86_negation"
   ],
   "note": "Holds where smin and smax are not assigned (C86_grid). False of the code otherwise: the grid is kept from the first time it is read (C86_kept), negation proved. Limits are lists, already converted to the element type."
  },
  {
   "property": "C87",
   "status": "partial",
   "theorems": [
    "Verif.Props.C87_copied",
    "Verif.Props.C87_shared",
    "Verif.Props.C87_points",
    "Verif.Props.C87_negation"
   ],
   "note": "Holds for arrays that are converted or not contiguous (C87_copied). False of the code for contiguous arrays of the element type of the object, which are not copied (C87_shared); negation proved."
  },
  {
   "property": "C88",
   "status": "partial",
   "theorems": [
    "Verif.Props.C88_value",
    "Verif.Props.C88_kept",
    "Verif.Props.C88_again",
    "Verif.Props.C88_shared",
    "Verif.Props.C88_failure",
    "Verif.Props.C88_negation"
   ],
   "note": "False of the code: the list is an attribute of the object and later calls of interpolate replace its items (C88_shared); negation proved. It stays as it is between calls (C88_kept) and where a call computes the same again (C88_again); a failing call leaves the first arrays replaced (C88_failure)."
  },
  {
   "property": "C89",
   "status": "partial",
   "theorems": [
    "Verif.Props.C89_negation"
   ],
   "note": "False of the code: the second call adds the last fine row again, so the tie rows no longer increase and interpolate raises ValueError; negation proved for every object without chunks in the stated family."
  },
  {
   "property": "C90",
   "status": "partial",
   "theorems": [
    "Verif.Props.C90_outcome",
    "Verif.Props.C90_rows",
    "Verif.Props.C90_cols",
    "Verif.Props.C90_several",
    "Verif.Props.C90_negation"
   ],
   "note": "Holds for one dimension: rows always (C90_rows), columns where the tie arrays have one shape (C90_cols), as those of GeoInterpolator do. False of the code otherwise: arrays of different widths, or a later dimension failing after an earlier one (C90_several says what is left); negation proved."
  },
  {
   "property": "C91",
   "status": "partial",
   "theorems": [
    "Verif.Props.C91_lon",
    "Verif.Props.C91_lat",
    "Verif.Props.C91_grid",
    "Verif.Props.C91_degrees",
    "Verif.Props.C91_direction_false"
   ],
   "note": "The longitude is that of the direction (C91_lon; the 180-degree meridian and the polar axis excepted, see C01). The latitude is not, as it is computed as if the point were on the sphere: negation proved (30 instead of 49 degrees half way between tie points 120 degrees of longitude apart). Proved instead in exact arithmetic: it is within 20 d degrees where tie points are at most sqrt(d) radii apart, within e*e/80 degrees for cells of e degrees."
  },
  {
   "property": "C92",
   "status": "partial",
   "theorems": [
    "Verif.Props.C92_offset",
    "Verif.Props.C92_alignment",
    "Verif.Props.C92_negation"
   ],
   "note": "True for the factors 2 and 4 of the public functions (C92_alignment, exact arithmetic). False of the code for every other factor: rows are off by (f-2)(f-4)/(16f) coarse rows (C92_offset); negation proved for 5000 m to 500 m, which is computed without an error."
  },
  {
   "property": "C93",
   "status": "partial",
   "theorems": [
    "Verif.Props.C93_chord",
    "Verif.Props.C93_grid",
    "Verif.Props.C93_uniform_false"
   ],
   "note": "False of the code as an equation, as points are interpolated along chords: negation proved (a quarter of the way between longitudes 0 and 90 of the equator is not reported at 22.5 degrees). Proved instead in exact arithmetic, for neighbours at most sqrt(d) radii apart, d <= 1/100: the result has the longitude of a point of the great circle arc, and its latitude to 20 d degrees, and the fraction of the way along the arc differs by at most d/50 from that of the positions. (Points on the polar axis excepted; for the longitude also the 180-degree meridian.)"
  },
  {
   "property": "C94",
   "status": "partial",
   "theorems": [
    "Verif.Props.C94_means",
    "Verif.Props.C94_cell",
    "Verif.Props.C94_vii",
    "Verif.Props.C94_local",
    "Verif.Props.C94_grid",
    "Verif.Props.C94_simple",
    "Verif.Props.C94_negation"
   ],
   "note": "False of the code, as one latitude above 60 degrees anywhere changes the way the whole array is interpolated: negation proved for a cell 90 degrees wide. Proved instead in exact arithmetic, with the default z threshold: for cells of at most e <= 4 degrees, latitudes up to 60 and longitudes up to 179, both ways (and GeoGridInterpolator, and the simple MODIS interpolator inside a cell) are within e*e/24 degrees of the bilinear interpolation of longitudes and latitudes, and two arrays with a common cell differ by no more."
  },
  {
   "property": "C95",
   "status": "partial",
   "theorems": [
    "Verif.Props.C95_position",
    "Verif.Props.C95_degrees",
    "Verif.Props.C95_labels",
    "Verif.Props.C95_exchanged",
    "Verif.Props.C95_missing",
    "Verif.Props.C95_names",
    "Verif.Props.C95_tie_points",
    "Verif.Props.C95_negation_labels",
    "Verif.Props.C95_negation_names"
   ],
   "note": "False of the code, as xarray matches by names and labels in the product of _lonlat2xyz, while the interpolation in degrees matches by position: negations proved for labels in another order and for names in another order. Proved: the two ways agree for equal names with labels that agree or are missing on one side, and exactly what happens otherwise. xarray's alignment (inner join in the order of the first operand, broadcasting by name) is modelled from its documentation."
  },
  {
   "property": "C96",
   "status": "partial",
   "theorems": [
    "Verif.Props.C96_convert",
    "Verif.Props.C96_grid",
    "Verif.Props.C96_simple",
    "Verif.Props.C96_modis",
    "Verif.Props.C96_vii",
    "Verif.Props.C96_modis5kmto1km",
    "Verif.Props.C96_modis1kmto500m",
    "Verif.Props.C96_modis1kmto250m",
    "Verif.Props.C96_metop20kmto1km",
    "Verif.Props.splSum_linSeg",
    "Verif.Props.C96_negation_meridian",
    "Verif.Props.C96_negation_vii"
   ],
   "note": "Exact arithmetic. The mirror images hold without exception. Turns hold up to the 180-degree meridian, which is reported as longitude 0 (C01; negation C96_negation_meridian), and for VII if the turned longitudes are not brought back into an interval of 360 degrees, or both arrays are interpolated in cartesian coordinates; otherwise false of the code, as the way of interpolating changes with the span of the longitudes: negation proved. For the presets the spline library is any one whose splines are weighted sums of the data with weights that do not depend on the data (splSum_linSeg: piecewise linear ones are)."
  },
  {
   "property": "C97",
   "status": "proved",
   "theorems": [
    "Verif.Props.C97_modis",
    "Verif.Props.C97_simple",
    "Verif.Props.C97_vii",
    "Verif.Props.C97_metop",
    "Verif.Props.C97_modis5km",
    "Verif.Props.C97_500m",
    "Verif.Props.C97_250m",
    "Verif.Props.C97_geo",
    "Verif.Props.C97_geo_shape",
    "Verif.Props.C97_geo_object",
    "Verif.Props.oddMake_grid",
    "Verif.Props.oddMake_spline",
    "Verif.Props.oddKernel_linear",
    "Verif.Props.oddLib_mcLinear"
   ],
   "note": "For every arithmetic that treats x and -x alike (Spec/Mirror `SymArith`; exact, rounded and mixed-precision instances proved in Proofs/Mirror; the sign of zero is not modelled). The interpolation library is assumed to negate its result with its data: proved for the piecewise linear spline, the linear grid kernel and linear map_coordinates. North and south are not exactly symmetric with rounding, as low latitudes are computed as 90 - acos(z/R)."
  },
  {
   "property": "C98",
   "status": "partial",
   "theorems": [
    "Verif.Props.C98_expansion",
    "Verif.Props.C98_alignment",
    "Verif.Props.C98_alignment_sharp",
    "Verif.Props.C98_weights",
    "Verif.Props.C98_diverges",
    "Verif.Props.C98_negation_weights",
    "Verif.Props.C98_negation"
   ],
   "note": "False of the code: the alignment coefficient is divided by the difference of the angles, so for two different but nearly equal angles it exceeds any bound (C98_diverges gives a lower bound 3.4e-7 w^2 / |a-b|), and a pixel between tie points at longitudes 0 and 1 is reported east of 90 degrees; negation proved for every conversion. Proved instead: the scan weight is within 2|s(1-s)| + 0.02/g of the position s of the pixel in its cell, g the difference of the angles in degrees. Exact arithmetic; angles in files have steps of 0.01 degrees."
  },
  {
   "property": "C99",
   "status": "proved",
   "theorems": [
    "Verif.Props.C99_presets",
    "Verif.Props.C99_half",
    "Verif.Props.C99_simple",
    "Verif.Props.C99_zenith",
    "Verif.Props.C99_zenith_ties"
   ],
   "note": "Exact arithmetic. Presets on one core (C52: more cores give the same arrays), for any library spline that is numeric, interpolating and piecewise linear for degree 1; no statement between the columns, where the cubic spline of the presets differs from the line. The bound with zenith angles is for the interpolated cartesian components, before the conversion to degrees; it is not sharp."
  },
  {
   "property": "C100",
   "status": "proved",
   "theorems": [
    "Verif.Props.C100_bilinear",
    "Verif.Props.C100_bilinear_sharp",
    "Verif.Props.C100_simple",
    "Verif.Props.C100_vii",
    "Verif.Props.C100_grid",
    "Verif.Props.C100_multilinear"
   ],
   "note": "Exact arithmetic. C100_simple speaks of the cartesian points before the conversion to degrees; C100_vii of the bilinear value that C41 shows to be the value of a pixel. No statement on points beyond the positions of grids and multilinear interpolators, nor on cubic splines."
  },
  {
   "property": "C101",
   "status": "partial",
   "theorems": [
    "Verif.Props.C101_expansion",
    "Verif.Props.C101_cell",
    "Verif.Props.C101_row",
    "Verif.Props.C101_row_5km",
    "Verif.Props.C101_negation",
    "Verif.Props.C101_negation_5km"
   ],
   "note": "Exact arithmetic. Proved for 1 km data where neighbouring zenith angles differ by at least 0.005 and at most 5 degrees (C101_row), for 5 km data at 1 km where they differ by 0.05 to 5 degrees (C101_row_5km), and within a cell for all conversions and angles at most 5 degrees apart that are not both zero (C101_cell: the scan weight increases with the position of the column). False of the code otherwise: for nearly equal angles (C101_negation), and for 5 km data at 500 m and 250 m for all angles, where columns 11, 12 (21, 22) are exchanged (C101_negation_5km; the positions of C31). No statement for angles more than 5 degrees apart."
  },
  {
   "property": "C102",
   "status": "proved",
   "theorems": [
    "Verif.Props.C102_conversions",
    "Verif.Props.C102_coefficients",
    "Verif.Props.C102_modis",
    "Verif.Props.C102_simple",
    "Verif.Props.C102_limit"
   ],
   "note": "Rounded arithmetic with an infinity (merged with NaN) for every result beyond the largest number of its format (Base/Ov), against the same arithmetic with unbounded exponent; underflow is not modelled. C102_modis: float32 and float64 mixed as in the Cython code, each at least as wide as 1e37 and 1e75; the bound on the coefficients (C102_coefficients) holds for all angles. C102_simple: for any map_coordinates whose results are at most twice the largest number of its array. C102_conversions for one format that stores 1e37."
  },
  {
   "property": "C103",
   "status": "proved",
   "theorems": [
    "Verif.Props.C103_cell",
    "Verif.Props.C103_cell_lat",
    "Verif.Props.C103_vii",
    "Verif.Props.C103_vii_lat",
    "Verif.Props.C103_grid",
    "Verif.Props.C103_simple",
    "Verif.Props.C103_wide_false"
   ],
   "note": "Exact arithmetic. C103_vii holds for both ways of the code (degrees and cartesian). Latitudes only where the code computes them from z (sine of the latitude below the threshold): beyond, rows and columns bulge towards the pole as great circles do. The case of longitudes that decrease is the mirror image (C96, C97). No statement outside the tie points."
  },
  {
   "property": "C104",
   "status": "proved",
   "theorems": [
    "Verif.Props.C104_coefficient",
    "Verif.Props.C104_half",
    "Verif.Props.C104_cell",
    "Verif.Props.C104_nadir",
    "Verif.Props.C104_uniform",
    "Verif.Props.C104_pixels",
    "Verif.Props.C104_run",
    "Verif.Props.C104_beyond"
   ],
   "note": "Exact arithmetic, spherical Earth with the radius and height of the code. The alignment term, which moves the pixels between the rows of tie points, is outside the statement (C98 bounds it); in C104_run it vanishes. C104_run assumes that the tie points lie on the circle of a scan in agreement with the zenith angles of the first row of the scan, which the code uses for both rows. C104_beyond is about the angle at the centre of pixels outside the two tie points; C109 has their positions."
  },
  {
   "property": "C105",
   "status": "proved",
   "theorems": [
    "Verif.Props.C105_coefficient",
    "Verif.Props.C105_outward",
    "Verif.Props.C105_rows",
    "Verif.Props.C105_pixels"
   ],
   "note": "Exact arithmetic. The lines of sight of the rows are taken parallel to the plane of the scan in the middle between two rows of tie points, half the row spacing of the ground at their distance beside it, as in the derivation of the algorithm."
  },
  {
   "property": "C106",
   "status": "proved",
   "theorems": [
    "Verif.Props.C106_run"
   ],
   "note": "The satellite height and the sphere are those of the code; rounding and library accuracy as in C69 (no overflow, see C102; no underflow). The zenith angles are those that the code uses, of the first row of tie points of the scan. Only longitude 0 near the 180-degree meridian is excepted, as in C07."
  },
  {
   "property": "C107",
   "status": "proved",
   "theorems": [
    "Verif.Props.C107_interpolation",
    "Verif.Props.C107_geo",
    "Verif.Props.C107_limit",
    "Verif.Props.C107_grid",
    "Verif.Props.C107_geogrid"
   ],
   "note": "Rounded arithmetic with an infinity (merged with NaN) beyond the largest number of the format, at least 1e37, as in C102; one format for all data and positions; library functions with a relative error of at most 1/100. Grids: the linear method (`linearKernel`), computed in one piece, fine points inside the grid; longitudes and latitudes of at most 1e10."
  },
  {
   "property": "C108",
   "status": "proved",
   "theorems": [
    "Verif.Props.C108_steps",
    "Verif.Props.C108_cell",
    "Verif.Props.C108_run"
   ],
   "note": "Exact arithmetic, spherical Earth with the radius and height of the zenith-angle interpolator; the rows of the tie points are on circles around the centre of the Earth (the small circles that detectors beside the middle of the scan really see are C105). That second order is the right order is C104_uniform. Pixels beyond the first and last rows of a scan and beyond the last tie column are outside the statement (C111 has them, with tie points beside the plane of the scan). The latitude is within 20 degrees times the squared size of the cell of that of the direction (C91)."
  },
  {
   "property": "C109",
   "status": "proved",
   "theorems": [
    "Verif.Props.C109_cell",
    "Verif.Props.C109_run"
   ],
   "note": "Exact arithmetic. The lines of sight of the rows are taken parallel to the plane of the scan in the middle between two rows of tie points (as in C105), and the zenith angles that the code uses are those of the lines in that plane. Every pixel is covered; those before the first and behind the last column of tie points if seen at a zenith angle of at most 70 degrees. The positions of the pixels between the tie points are those of the code, which are wrong for 5 km to 500 m and 250 m (C31). The statement names the conversion of P to longitude and latitude itself; C110 compares longitude and latitude with those of the point seen."
  },
  {
   "property": "C110",
   "status": "proved",
   "theorems": [
    "Verif.Props.C110_run"
   ],
   "note": "The geometry is that of C109, the arithmetic that of C69 (no overflow, see C102; no underflow). The size of the cell and the sizes of the weights, hypotheses in C69, are derived from the geometry. Pixels before the first and behind the last column of tie points are covered if seen at a zenith angle of at most 70 degrees. The positions of the pixels between the tie points are those of the code, which are wrong for 5 km to 500 m and 250 m (C31). Only longitude 0 near the 180-degree meridian is excepted, as in C07."
  },
  {
   "property": "C111",
   "status": "proved",
   "theorems": [
    "Verif.Props.C111_run"
   ],
   "note": "The geometry is that of C109 for rows one kilometre apart, the arithmetic that of C75 (no underflow; map_coordinates is a parameter with a stated accuracy). The size of the cell, a hypothesis in C75, is derived from the geometry. Only longitude 0 near the 180-degree meridian is excepted, as in C07."
  },
  {
   "property": "C112",
   "status": "proved",
   "theorems": [
    "Verif.Props.C112_interpolate",
    "Verif.Props.C112_grid",
    "Verif.Props.C112_limit"
   ],
   "note": "Rounded arithmetic with an infinity (merged with NaN) beyond the largest number of the format, at least 1e37, as in C102 and C107; no underflow. One to four dimensions, points inside the grid; outside it the weights, and so the results, can be of any size. C112_limit is stated at the last node only: at points for which the distance from the first node is still a number the code divides by an infinite length, which an arithmetic that does not tell infinity from NaN cannot show."
  },
  {
   "property": "C113",
   "status": "proved",
   "theorems": [
    "Verif.Props.C113_fill",
    "Verif.Props.C113_limit"
   ],
   "note": "Rounded arithmetic with an infinity (merged with NaN) beyond the largest number of the format, at least 1e37, as in C102; no underflow. Division by the difference of equal positions gives no number with and without overflow. Data arrays of integer types are the subject of other claims."
  }
 ]
}