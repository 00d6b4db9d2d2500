{"id": "C01", "title": "lon/lat -> xyz -> lon/lat round trip", "statement": "Converting a longitude in (-180, 180] and a latitude strictly between the poles to cartesian coordinates with lonlat2xyz and back with xyz2lonlat (same radius) returns exactly the same longitude and latitude (exact arithmetic), whatever the threshold switching between the two latitude formulas.", "quantifier": "every longitude in (-180,180], every latitude in (-90,90), every positive radius, every threshold", "why_tests_cant": "a continuum of positions, with two formulas, sign cases and singular meridians; a test samples finitely many", "anchors": ["geotiepoints/geointerpolator.py: lonlat2xyz, xyz2lonlat"]}
{"id": "C02", "title": "xyz -> lon/lat -> xyz round trip on the sphere", "statement": "For every point on the sphere of the given radius that is off the polar axis and off the 180-degree meridian, xyz2lonlat followed by lonlat2xyz returns the same point.", "quantifier": "every point of the sphere except the 180-degree meridian half-plane", "why_tests_cant": "continuum of points", "anchors": ["geotiepoints/geointerpolator.py: xyz2lonlat, lonlat2xyz"]}
{"id": "C03", "title": "longitudes and latitudes stay in range", "statement": "Whenever xyz2lonlat returns numbers, the longitude is in [-180, 180] and the latitude is in [-90, 90], also for points inside or outside the sphere as produced by interpolation and extrapolation.", "quantifier": "every cartesian triple, every positive radius, every threshold", "why_tests_cant": "continuum of points, including extrapolated ones no test generates", "anchors": ["geotiepoints/geointerpolator.py: xyz2lonlat", "geotiepoints/_modis_utils.pyx: xyz2lonlat", "geotiepoints/viiinterpolator.py: _xyz2lonlat"]}
{"id": "C04", "title": "no NaN from back conversion away from the polar axis", "statement": "xyz2lonlat returns a number for the longitude exactly when the point is off the polar axis, and a number for the latitude whenever the point lies in the closed ball of the sphere's radius; consequently any convex combination of points on the sphere has a numeric latitude.", "quantifier": "every cartesian triple in the closed ball; every finite convex combination of tie points", "why_tests_cant": "needs all points; NaN appears only on a measure-zero set that sampling misses", "anchors": ["geotiepoints/geointerpolator.py: xyz2lonlat", "geotiepoints/_modis_utils.pyx: xyz2lonlat"]}
{"id": "C05", "title": "back conversion: direction and accuracy for points off the sphere", "statement": "The longitude depends only on the direction of (x, y): scaling the point by any positive factor leaves it unchanged. For a point inside the ball the latitude returned by either formula brackets the true geocentric latitude: the z formula never exceeds it in magnitude and the xy formula never falls below it.", "quantifier": "every point of the ball off the axis, every positive scale factor", "why_tests_cant": "continuum of points", "anchors": ["geotiepoints/geointerpolator.py: xyz2lonlat"]}
{"id": "C06", "title": "the three copies of the coordinate conversion agree", "statement": "The numpy conversion (geointerpolator), the Cython conversion (_modis_utils) and the VII conversion return the same longitude and latitude for the same cartesian point, radius and threshold.", "quantifier": "every finite cartesian triple, every positive radius, every threshold", "why_tests_cant": "three independent code paths over a continuum of inputs", "anchors": ["geotiepoints/geointerpolator.py: xyz2lonlat", "geotiepoints/_modis_utils.pyx: xyz2lonlat", "geotiepoints/viiinterpolator.py: _xyz2lonlat"]}
{"id": "C07", "title": "interpolation across the antimeridian", "statement": "A pixel interpolated (by non-negative weights) between tie points that all lie on the far side of the globe (|lon| > 90) is also reported on the far side (|lon| > 90): no pixel jumps to the opposite side near longitude 0, including a pixel lying exactly on the 180-degree meridian.", "quantifier": "every family of tie points on the far hemisphere, every set of non-negative weights summing to one", "why_tests_cant": "the failing set is a single meridian; sampled data never lies exactly on it", "anchors": ["geotiepoints/geointerpolator.py: xyz2lonlat", "geotiepoints/_modis_utils.pyx: xyz2lonlat", "geotiepoints/viiinterpolator.py: _xyz2lonlat"]}
{"id": "C08", "title": "border extrapolation is the straight line through the two nearest tie points", "statement": "The linear extrapolation used for borders returns, for each column, the value at the requested position of the unique straight line through the two given tie points; it refuses anything but exactly two positions and two lines.", "quantifier": "every pair of distinct positions, every pair of rows of any length, every target position", "why_tests_cant": "all positions and row lengths", "anchors": ["geotiepoints/interpolator.py: _linear_extrapolate"]}
{"id": "C09", "title": "fill_borders('x') reaches the fine grid edges, keeps the data and is idempotent", "statement": "After fill_borders('x') the column positions start and end at the first and last fine columns, the original columns are still there unchanged and in order, an edge already reached is not extrapolated, data and positions stay the same length, and calling it a second time changes nothing.", "quantifier": "every tie grid with at least two columns, every data set, every fine grid", "why_tests_cant": "all sizes and all edge configurations, repeated calls", "anchors": ["geotiepoints/interpolator.py: Interpolator.fill_borders, Interpolator._fill_col_borders, Interpolator._extrapolate_cols"]}
{"id": "C10", "title": "fill_borders('y') brackets every chunk", "statement": "If the fine rows split into whole chunks and each chunk contains at least two tie rows, fill_borders('y') succeeds and the result is, chunk by chunk in order, one row extrapolated to the chunk's first fine row, the chunk's tie rows unchanged, and one row extrapolated to the chunk's last fine row, with matching row positions. If the fine rows are not a whole number of chunks it raises instead of returning.", "quantifier": "every number of chunks, every chunk size, every tie row layout, every data set", "why_tests_cant": "unbounded number of chunks and layouts", "anchors": ["geotiepoints/interpolator.py: Interpolator._fill_row_borders, Interpolator._extrapolate_rows"]}
{"id": "C11", "title": "fill_borders rejects unknown dimensions before touching anything", "statement": "fill_borders called with any list of dimensions containing something other than 'x' or 'y' raises NameError and leaves the interpolator unchanged, even if valid dimensions come first.", "quantifier": "every argument list, every interpolator state", "why_tests_cant": "unbounded argument lists and states", "anchors": ["geotiepoints/interpolator.py: Interpolator.fill_borders"]}
{"id": "C12", "title": "the order of border filling does not matter", "statement": "fill_borders('x','y') and fill_borders('y','x') leave the interpolator in the same state (same positions, same data).", "quantifier": "every interpolator on which the fills succeed", "why_tests_cant": "all data and layouts", "anchors": ["geotiepoints/interpolator.py: Interpolator.fill_borders"]}
{"id": "C13", "title": "interpolate() reproduces the tie points and returns the fine shape", "statement": "Interpolator.interpolate() returns, for every data array, an array with one row per fine row and one column per fine column; wherever a fine row and column coincide with a tie row and column the returned value is the tie value; calling it again returns the same arrays.", "quantifier": "every strictly increasing tie grid, every data set, every fine grid, every spline order whose 1-d spline interpolates", "why_tests_cant": "all grids and data", "anchors": ["geotiepoints/interpolator.py: Interpolator.interpolate, Interpolator._interp, Interpolator._interp1d"]}
{"id": "C14", "title": "affine fields are reproduced exactly, borders included", "statement": "If the tie data is an affine function of row and column position, then fill_borders('y','x') followed by first-order interpolation returns exactly that affine function at every fine pixel.", "quantifier": "every affine field, every tie grid/fine grid/chunk size on which the fills succeed and which is sorted", "why_tests_cant": "all grids and all affine coefficients", "anchors": ["geotiepoints/interpolator.py: Interpolator"]}
{"id": "C15", "title": "preset MODIS functions accept any number of whole scans", "statement": "modis5kmto1km, modis1kmto500m and modis1kmto250m never raise on inputs of any positive number of whole scans with the nominal width (the spline is always given strictly increasing positions matching the data) and return arrays of exactly 5, 2 and 4 times the number of lines, and 1354, 2708 and 5416 columns.", "quantifier": "every positive number of scans, every longitude/latitude content", "why_tests_cant": "unbounded number of scans", "anchors": ["geotiepoints/__init__.py: modis5kmto1km, modis1kmto500m, modis1kmto250m", "geotiepoints/interpolator.py: Interpolator"]}
{"id": "C16", "title": "preset MODIS functions treat scans independently", "statement": "The output lines belonging to one scan depend only on the input lines of that scan: processing several scans at once gives exactly the stacked results of processing each scan alone (modis5kmto1km, modis1kmto500m, modis1kmto250m).", "quantifier": "every positive number of scans, every content", "why_tests_cant": "unbounded number of scans; would need all inputs", "anchors": ["geotiepoints/__init__.py: modis5kmto1km, modis1kmto500m, modis1kmto250m", "geotiepoints/interpolator.py: Interpolator._fill_row_borders, Interpolator._interp"]}
{"id": "C17", "title": "multi-core result equals single-core result", "statement": "modis1kmto500m and modis1kmto250m return the same arrays for cores=1 and for any cores>1, for any input made of whole scans.", "quantifier": "every number of cores, every positive number of scans, every content, every worker completion order", "why_tests_cant": "all core counts and schedules", "anchors": ["geotiepoints/__init__.py: modis1kmto500m, modis1kmto250m, _multi, get_scene_splits"]}
{"id": "C18", "title": "scene splitting is a partition into whole scans", "statement": "get_scene_splits returns strictly increasing line numbers, all multiples of the scan length, all strictly inside the swath; cutting the swath there gives non-empty pieces whose concatenation is the swath, every piece but the last is a whole number of scans (the last one too if the swath is), and there are at most twice as many pieces as cores (when the swath is made of whole scans and has at least one scan per core; otherwise one piece per scan).", "quantifier": "every swath length, scan length and core count", "why_tests_cant": "three unbounded integers", "anchors": ["geotiepoints/__init__.py: get_scene_splits, _multi"]}
{"id": "C19", "title": "parallel work is reassembled in input order whatever the schedule", "statement": "The multi-core driver returns the stacked per-piece results in swath order for every order in which the workers finish, and if some piece raises, the error of the first failing piece (in swath order) is raised.", "quantifier": "every completion order of the worker pool, every worker function, every number of pieces", "why_tests_cant": "schedules cannot be enumerated by tests", "anchors": ["geotiepoints/__init__.py: _multi"]}
{"id": "C20", "title": "metop20kmto1km works line by line and keeps the tie points", "statement": "metop20kmto1km returns one line of 2048 pixels per input line, each output line depends only on the same input line, and the pixels at the 20 km tie columns carry the tie positions (up to the coordinate conversion).", "quantifier": "every number of lines, every content", "why_tests_cant": "unbounded number of lines", "anchors": ["geotiepoints/__init__.py: metop20kmto1km", "geotiepoints/interpolator.py: Interpolator._interp1d"]}
{"id": "C21", "title": "generic_modis5kmto1km upsamples any 5 km arrays", "statement": "generic_modis5kmto1km called with arrays of any positive number of whole 5 km scans returns arrays with five times as many lines and 1354 columns.", "quantifier": "every number of scans, every content", "why_tests_cant": "no test calls the function", "anchors": ["geotiepoints/interpolator.py: generic_modis5kmto1km, Interpolator._fill_row_borders"]}
{"id": "C22", "title": "dask chunk slices tile the fine grid", "statement": "For any chunking of an array of any number of dimensions, the enumerated slices have the chunk sizes, stay inside the array, and every element belongs to exactly one of them.", "quantifier": "every number of dimensions, every tuple of chunk tuples", "why_tests_cant": "unbounded dimensions, chunk counts and sizes", "anchors": ["geotiepoints/interpolator.py: _enumerate_chunk_slices"]}
{"id": "C23", "title": "chunked interpolation equals unchunked interpolation", "statement": "SingleGridInterpolator/SingleSplineInterpolator.interpolate(fine_points, chunks=...) computes to the same array (or the same error) as interpolate(fine_points), for every chunking.", "quantifier": "every chunking, every fine point vectors, every interpolated data", "why_tests_cant": "all chunkings and grids", "anchors": ["geotiepoints/interpolator.py: AbstractSingleInterpolator.interpolate, interpolate_dask, interpolate_slices, SingleGridInterpolator.interpolate_numpy, SingleSplineInterpolator.interpolate_numpy"]}
{"id": "C24", "title": "interpolate_to_shape and multi-array interpolation act array by array", "statement": "Multiple{Grid,Spline}Interpolator.interpolate returns exactly one result per input array, in order, each equal to what a single interpolator of that array returns; interpolate_to_shape(shape) is interpolate at 0..n-1 in each dimension, chunked or not.", "quantifier": "every number of arrays, every shape, every chunking", "why_tests_cant": "unbounded number of arrays and shapes", "anchors": ["geotiepoints/interpolator.py: AbstractMultipleInterpolator"]}
{"id": "C25", "title": "geographic grid interpolation reproduces tie points and validates its arguments", "statement": "GeoGridInterpolator given lon/lat arrays returns, at every fine point coinciding with a tie point (off the polar axis and the 180-degree meridian), the tie longitude and latitude; it accepts exactly one or two data arguments and raises ValueError otherwise; outside the tie grid linear interpolation raises instead of returning a value.", "quantifier": "every strictly increasing grid, every lon/lat arrays, every number of arguments", "why_tests_cant": "all grids, data and argument counts", "anchors": ["geotiepoints/geointerpolator.py: _work_with_lonlats, to_xyz, GeoGridInterpolator", "geotiepoints/interpolator.py: SingleGridInterpolator"]}
{"id": "C26", "title": "dask results of different interpolators can be computed together", "statement": "The lazy arrays of two interpolations computed in one dask graph give each its own values, whatever the two interpolators and their options.", "quantifier": "every pair of interpolators, data, fine points, chunkings and options", "why_tests_cant": "name collisions appear only for particular pairs of objects", "anchors": ["geotiepoints/interpolator.py: AbstractSingleInterpolator.interpolate_dask"]}
{"id": "C27", "title": "MODIS satellite-angle interpolation: memory safe, fully initialised, right shape", "statement": "For every public MODIS conversion (1km->500m, 1km->250m, 5km->1km, 5km->500m, 5km->250m; 5 km inputs 270 or 271 columns wide) and any number of whole scans, the compiled loops read and write only inside their arrays, every output pixel is assigned, no output value depends on uninitialised memory, and the output shape is (lines x factor, 1354 x pixels per km).", "quantifier": "every conversion, every number of scans, every content, every initial memory content", "why_tests_cant": "bounds checks are compiled out, so a violation is silent; uninitialised memory is non-deterministic", "anchors": ["geotiepoints/_modis_interpolator.pyx: interpolate, MODISInterpolator", "geotiepoints/modisinterpolator.py: modis_1km_to_250m, modis_1km_to_500m, modis_5km_to_1km, modis_5km_to_500m, modis_5km_to_250m"]}
{"id": "C28", "title": "MODIS satellite-angle interpolation: scans are independent", "statement": "Interpolating several scans at once gives exactly (bit for bit) the stacked results of interpolating each scan alone, although all scans share the same work arrays.", "quantifier": "every number of scans, every content, any floating point arithmetic", "why_tests_cant": "unbounded scans; hidden state in shared scratch buffers", "anchors": ["geotiepoints/_modis_interpolator.pyx: MODISInterpolator._interpolate_lons_lats"]}
{"id": "C29", "title": "MODIS interpolation: every output pixel is determined by its own tie-point cell", "statement": "A fine pixel depends only on the longitudes/latitudes of the four tie points of its cell and the zenith angles of the two upper tie points of that cell; a NaN or bad value elsewhere cannot affect it (bit for bit, any floating point arithmetic).", "quantifier": "every pixel, every pair of inputs agreeing on the cell", "why_tests_cant": "quantifies over pairs of inputs", "anchors": ["geotiepoints/_modis_interpolator.pyx: MODISInterpolator._expand_tiepoint_array, MODISInterpolator._compute_fine_xyz"]}
{"id": "C30", "title": "lazy (dask) MODIS interpolation equals eager interpolation", "statement": "For dask inputs of whole scans, with any row and column chunking (possibly different between arrays), the computed result equals the numpy result, and the declared chunk sizes equal the sizes of the computed blocks; inputs that are not whole scans raise ValueError.", "quantifier": "every chunking of every input array, every number of scans, both MODIS interpolators", "why_tests_cant": "unbounded set of chunkings", "anchors": ["geotiepoints/_modis_utils.pyx: scanline_mapblocks, _rechunk_dask_arrays_if_needed, _call_map_blocks_interp"]}
{"id": "C31", "title": "MODIS: fine pixels are placed at their geometric position", "statement": "For every fine row and column, tie cell index plus fractional coordinate equals the pixel centre's position on the tie grid: rows (r+0.5)/f-0.5 and columns c/f for 1km->500m/250m; (i-2)/5 in both directions for 5km->1km; and the corresponding positions for 5km->500m/250m.", "quantifier": "every fine row and column index of every conversion", "why_tests_cant": "the claim is about thousands of index computations at once, including edge special cases", "anchors": ["geotiepoints/_modis_interpolator.pyx: MODISInterpolator._get_coords_1km, MODISInterpolator._get_coords_5km, MODISInterpolator._expand_tiepoint_array_1km, MODISInterpolator._expand_tiepoint_array_5km"]}
{"id": "C32", "title": "5km->1km reproduces every tie point", "statement": "Subsampling the 1 km output of modis_5km_to_1km at rows 2,7,12,... and columns 2,7,...,(last tie) gives back the 5 km longitudes and latitudes (for tie positions off the axis and off the 180-degree meridian, and zenith angles for which the expansion coefficients are numbers), for 270 and 271 column inputs.", "quantifier": "every tie point of every scan, every content", "why_tests_cant": "all tie points and contents", "anchors": ["geotiepoints/modisinterpolator.py: modis_5km_to_1km", "geotiepoints/_modis_interpolator.pyx: MODISInterpolator"]}
{"id": "C33", "title": "MODIS interpolation weights sum to one", "statement": "If all the tie points of a cell carry the same position then every fine pixel of the cell gets that position, whatever the zenith angles (as long as the coefficients are numbers).", "quantifier": "every conversion, pixel, position and zenith angles", "why_tests_cant": "all contents", "anchors": ["geotiepoints/_modis_interpolator.pyx: MODISInterpolator._calculate_atrack_ascan, MODISInterpolator._compute_fine_xyz_component"]}
{"id": "C34", "title": "expansion and alignment coefficients are numbers for real viewing geometries", "statement": "For adjacent zenith angles in [0, 80] degrees, equal or different, the expansion and alignment coefficients are numbers (so no NaN appears in the output), including pairs symmetrical about nadir.", "quantifier": "every pair of zenith angles", "why_tests_cant": "continuum of pairs with an exceptional set of measure zero", "anchors": ["geotiepoints/_modis_interpolator.pyx: _compute_expansion_alignment"]}
{"id": "C35", "title": "unsupported 5 km widths are rejected, 1 km widths are checked", "statement": "The MODIS interpolation functions refuse inputs whose width is not one the algorithm supports (270/271 for 5 km, 1354 for 1 km) instead of returning data.", "quantifier": "every input width", "why_tests_cant": "unbounded widths; compiled out bounds checks", "anchors": ["geotiepoints/_modis_interpolator.pyx: interpolate, MODISInterpolator.__cinit__", "geotiepoints/_modis_utils.pyx: lonlat2xyz"]}
{"id": "C36", "title": "simple MODIS interpolation is bilinear interpolation with linear extension at the edges", "statement": "Per scan, simple_modis_interpolator's cartesian output at fine pixel (j, i) is the bilinear interpolation of the scan at row (j+0.5)/f-0.5 and column i/f, where beyond the first/last tie row and the last tie column the last cell's bilinear form is continued; in particular affine fields are reproduced exactly and tie columns are hit exactly.", "quantifier": "both factors, every number of columns >= 2, every content, every pixel", "why_tests_cant": "all contents and sizes", "anchors": ["geotiepoints/_simple_modis_interpolator.pyx: interpolate_geolocation_cartesian, _compute_interpolated_xyz_scan, _extrapolate_xyz_rightmost_columns, _interpolate_xyz_250, _interpolate_xyz_500"]}
{"id": "C37", "title": "simple MODIS interpolation: memory safe, fully initialised, scan independent", "statement": "For 1000m to 500m/250m and any number of whole scans and at least two columns the compiled loops stay inside their arrays, every output pixel is assigned independently of previous memory content, the output shape is the input shape times the factor, and several scans give the stacked results of each scan alone.", "quantifier": "every number of scans and columns, every content, every initial memory content", "why_tests_cant": "bounds checks compiled out; unbounded sizes", "anchors": ["geotiepoints/_simple_modis_interpolator.pyx: interpolate_geolocation_cartesian"]}
{"id": "C38", "title": "both MODIS interpolators agree when the correction coefficients vanish", "statement": "When expansion and alignment coefficients are zero, the satellite-angle interpolator places every 500m/250m pixel exactly where the simple interpolator does.", "quantifier": "both factors, every pixel, every content", "why_tests_cant": "all contents", "anchors": ["geotiepoints/_modis_interpolator.pyx: MODISInterpolator", "geotiepoints/_simple_modis_interpolator.pyx: interpolate_geolocation_cartesian"]}
{"id": "C39", "title": "numpy inputs that are not whole scans are rejected", "statement": "The MODIS interpolation functions raise on numpy inputs whose number of rows is not a whole number of scans (as they do for dask inputs) rather than return undefined data.", "quantifier": "every number of rows", "why_tests_cant": "undefined memory content may look plausible in a test", "anchors": ["geotiepoints/_modis_utils.pyx: scanline_mapblocks", "geotiepoints/_simple_modis_interpolator.pyx: interpolate_geolocation_cartesian", "geotiepoints/_modis_interpolator.pyx: MODISInterpolator.interpolate"]}
{"id": "C40", "title": "VII interpolation: shape, and errors on inconsistent input", "statement": "tie_points_interpolation returns, for every input array, an array of n_scans*(T-1)*F rows and (n_act-1)*F columns (T tie rows per scan, F subsampling factor); it raises ValueError when the number of tie rows is not a multiple of T or when the arrays' shapes or dimensions differ.", "quantifier": "every T >= 2, F >= 1, number of scans >= 1, of tie columns >= 2 (xarray's interp rejects an empty target) and of arrays >= 1; errors for every T >= 1", "why_tests_cant": "unbounded sizes", "anchors": ["geotiepoints/viiinterpolator.py: tie_points_interpolation"]}
{"id": "C41", "title": "VII interpolation: exact at tie points, bilinear inside a scan, never mixing scans", "statement": "The pixel p rows into scan s and q columns across is the bilinear interpolation of the four tie points of its cell of the same scan: pixels at multiples of F equal the tie values, every value lies between the smallest and largest of its four ties, it is always a number when those ties are, and tie rows of other scans have no influence.", "quantifier": "every scan, pixel, T >= 2, F >= 1, every content", "why_tests_cant": "unbounded sizes and contents", "anchors": ["geotiepoints/viiinterpolator.py: tie_points_interpolation"]}
{"id": "C42", "title": "VII geolocation: cartesian path taken exactly when needed, tie points kept in both", "statement": "tie_points_geo_interpolation interpolates lon/lat directly exactly when all |latitude| <= threshold and the longitudes span at most 180 degrees, and through cartesian coordinates otherwise; in both cases pixels at tie points carry the tie longitude and latitude (cartesian: off the axis and the 180-degree meridian); shapes must match or ValueError is raised.", "quantifier": "every longitude/latitude arrays, thresholds and sizes", "why_tests_cant": "all contents and sizes", "anchors": ["geotiepoints/viiinterpolator.py: tie_points_geo_interpolation"]}
{"id": "C43", "title": "multilinear interpolation reproduces the grid values", "statement": "MultilinearInterpolator in 1 to 4 dimensions evaluated at any node of its grid returns the value given for that node, with values enumerated with the last index varying fastest (the order of the grid attribute).", "quantifier": "every dimension 1..4, every bounds, every orders >= 2, every values, every node", "why_tests_cant": "unbounded orders and values", "anchors": ["geotiepoints/multilinear_cython.pyx: multilinear_interpolation_1d, multilinear_interpolation_2d, multilinear_interpolation_3d, multilinear_interpolation_4d", "geotiepoints/multilinear.py: MultilinearInterpolator, mlinspace"]}
{"id": "C44", "title": "multilinear interpolation is exact for multi-affine functions, inside and outside the grid", "statement": "If the values sample a function affine in each coordinate separately, evaluation at any point (also outside the grid) returns that function's value.", "quantifier": "every multi-affine function, every point whose grid coordinates fit a C int, every grid", "why_tests_cant": "continuum of points", "anchors": ["geotiepoints/multilinear_cython.pyx: multilinear_interpolation_1d, multilinear_interpolation_2d, multilinear_interpolation_3d, multilinear_interpolation_4d"]}
{"id": "C45", "title": "multilinear interpolation stays inside the array and inside the data range", "statement": "For orders >= 2 and values of matching length, every index read is inside the value array for every finite evaluation point, and for points inside the grid the result lies between the smallest and largest of the values.", "quantifier": "every dimension 1..4, every point, grid and values", "why_tests_cant": "bounds checks compiled out; continuum of points", "anchors": ["geotiepoints/multilinear_cython.pyx: multilinear_interpolation and its kernels"]}
{"id": "C46", "title": "multilinear interpolation does not depend on the thread schedule", "statement": "The result array is the same for every order in which the parallel loop's iterations run and every set of value rows; each output row depends only on its own value row; more than four dimensions raise.", "quantifier": "every schedule, every number of points and value rows", "why_tests_cant": "schedules cannot be enumerated", "anchors": ["geotiepoints/multilinear_cython.pyx: multilinear_interpolation"]}
{"id": "C47", "title": "BasicSatelliteInterpolator keeps tie points and interpolates linearly between them", "statement": "For tie rows/columns starting at 0, the result has last index + 1 rows and columns, equals the tie data at tie positions, and is linear between consecutive tie positions in each direction.", "quantifier": "every increasing tie index lists starting at 0, every data", "why_tests_cant": "unbounded sizes", "anchors": ["geotiepoints/basic_interpolator.py: BasicSatelliteInterpolator"]}
{"id": "C48", "title": "the simple MODIS interpolator never leaves its arrays, whatever it accepts", "statement": "simple_modis_interpolator's functions either raise or stay inside their arrays, for every number of columns and for every pair of resolutions they do not reject.", "quantifier": "every number of columns, every accepted pair of resolutions, every content", "why_tests_cant": "bounds checks compiled out: an out-of-bounds access may go unnoticed in a test", "anchors": ["geotiepoints/_simple_modis_interpolator.pyx: interpolate_geolocation_cartesian, _extrapolate_xyz_rightmost_columns, _interpolate_xyz_500"]}
{"id": "C49", "title": "fine positions beyond the tie points take the nearest tie row or column", "statement": "Interpolator.interpolate on two-dimensional grids (fine rows other than the tie rows) does not extrapolate: at fine rows before the first or after the last tie row, and fine columns likewise, the result is the value of the nearest tie row or column.", "quantifier": "every strictly increasing tie positions, sorted fine positions, data and spline orders", "why_tests_cant": "unbounded sizes; tests always fill the borders first", "anchors": ["geotiepoints/interpolator.py: Interpolator._interp"]}
{"id": "C50", "title": "rows per scan", "statement": "rows_per_scan_for_resolution answers exactly for 250, 500, 1000 and 5000 m, where rows times resolution is 10 km, and raises KeyError for everything else.", "quantifier": "every resolution", "why_tests_cant": "unbounded input", "anchors": ["geotiepoints/_modis_utils.pyx: rows_per_scan_for_resolution"]}
{"id": "C51", "title": "rechunking gives whole scans and full lines, and leaves suitably chunked arrays alone", "statement": "_rechunk_dask_arrays_if_needed keeps the contents, gives every array row chunks of whole scans and a single column chunk, and returns arrays whose chunks already are whole scans and full lines, all alike, unchanged.", "quantifier": "every number of arrays, every shape and chunking, every rows_per_scan", "why_tests_cant": "unbounded chunkings; tests look at the result's values only", "anchors": ["geotiepoints/_modis_utils.pyx: _rechunk_dask_arrays_if_needed"]}
{"id": "C52", "title": "MODIS presets: values along the tie columns", "statement": "At the fine columns that lie on tie columns, modis5kmto1km, modis1kmto500m and modis1kmto250m give the longitude and latitude of the point of the straight line through the two tie points of the same scan next to the fine row (inter- and extrapolated in cartesian coordinates); in particular modis5kmto1km returns the tie longitudes and latitudes at the tie points' pixels.", "quantifier": "every positive number of whole scans, every scan, row and tie column, every tie longitudes and latitudes", "why_tests_cant": "unbounded numbers of scans and a continuum of tie points; tests compare a few granules with a tolerance", "anchors": ["geotiepoints/__init__.py: modis5kmto1km, modis1kmto500m, modis1kmto250m", "geotiepoints/geointerpolator.py: GeoInterpolator", "geotiepoints/interpolator.py: Interpolator"]}
{"id": "C53", "title": "MODIS functions take numpy, dask and DataArray arguments alike", "statement": "The functions wrapped by scanline_mapblocks give the same values for any mixture of numpy arrays, dask arrays and xarray DataArrays (results of DataArray calls are DataArrays with the first argument's dimensions), and refuse calls without both resolutions, without arrays, or with a first array that is not two-dimensional.", "quantifier": "every mixture of containers, every number of whole scans, every chunking and content, every conversion", "why_tests_cant": "the mixtures of containers, chunkings and sizes are unboundedly many; the tests use uniform arguments", "anchors": ["geotiepoints/_modis_utils.pyx: scanline_mapblocks, _extract_dask_arrays_from_args, _rechunk_dask_arrays_if_needed, _call_map_blocks_interp, _results_to_data_arrays", "geotiepoints/modisinterpolator.py: modis_1km_to_500m, modis_1km_to_250m, modis_5km_to_1km", "geotiepoints/simple_modis_interpolator.py: modis_1km_to_500m, modis_1km_to_250m"]}
{"id": "C54", "title": "linear grid interpolation: values between, beyond and off the tie points", "statement": "Linear grid interpolation gives, inside the grid, the bilinear function of the four tie values around the fine point (so never leaves the range of the tie values); outside, the fill value or the continued border cell according to the options; and no number for NaN coordinates.", "quantifier": "every strictly increasing positions, array of numbers, options, fine points", "why_tests_cant": "a continuum of fine points and tie values; the tests use two small grids", "anchors": ["geotiepoints/interpolator.py: SingleGridInterpolator"]}
{"id": "C55", "title": "grid interpolation does not depend on the direction of the tie positions", "statement": "Giving the tie positions of a dimension in descending order together with the array flipped in that dimension changes nothing: the same calls are refused, the same values returned.", "quantifier": "every strictly increasing positions, array of any shape and content, options, method, fine points", "why_tests_cant": "unbounded inputs; no test uses descending positions", "anchors": ["geotiepoints/interpolator.py: SingleGridInterpolator"]}
{"id": "C56", "title": "grid and spline interpolators refuse unsuitable tie points at construction", "statement": "A grid interpolator is built exactly when the positions of each dimension are strictly monotonic and match the array, a spline interpolator exactly when they strictly increase, match the array and number more than the spline order; everything else is a ValueError. A single plain array as geographic data is refused.", "quantifier": "every positions, array and spline orders", "why_tests_cant": "unbounded inputs", "anchors": ["geotiepoints/interpolator.py: SingleGridInterpolator, SingleSplineInterpolator", "geotiepoints/geointerpolator.py: to_xyz"]}
{"id": "C57", "title": "no NaN from back conversion, with rounding", "statement": "In rounded floating point arithmetic the longitude is a number for every point off the polar axis and the latitude for every point not far outside the sphere (up to 1.2 radii): no rounding pushes an argument of acos or asin out of [-1, 1].", "quantifier": "every number of bits p >= 8 (23 for EARTH_RADIUS), every round-to-nearest (any tie rule), every library, every representable point", "why_tests_cant": "rounding errors at the edge of a domain show for rare inputs only; there are 2^192 points", "anchors": ["geotiepoints/geointerpolator.py: xyz2lonlat", "geotiepoints/_modis_utils.pyx: xyz2lonlat", "geotiepoints/viiinterpolator.py: _xyz2lonlat"]}
{"id": "C58", "title": "points on different sides of the meridian 0 get different longitudes, with rounding", "statement": "In rounded floating point arithmetic a point east (west) of the meridian 0 gets a positive (negative) longitude.", "quantifier": "every precision and rounding, every representable point", "why_tests_cant": "the affected strip is metres wide and depends on the precision", "anchors": ["geotiepoints/geointerpolator.py: xyz2lonlat", "geotiepoints/_modis_utils.pyx: xyz2lonlat", "geotiepoints/viiinterpolator.py: _xyz2lonlat"]}
{"id": "C59", "title": "longitudes and latitudes in range, with rounding", "statement": "In rounded floating point arithmetic every numeric longitude is in [-180, 180] and every numeric latitude in [-90, 90].", "quantifier": "every number of bits p >= 8, every rounding, every finite point, positive radius and threshold", "why_tests_cant": "the continuum of points; a rounded factor 180/pi could exceed the limits by one unit in the last place for single inputs", "anchors": ["geotiepoints/geointerpolator.py: xyz2lonlat", "geotiepoints/_modis_utils.pyx: xyz2lonlat", "geotiepoints/viiinterpolator.py: _xyz2lonlat"]}
{"id": "C60", "title": "tie values reproduced bit for bit, with rounding", "statement": "In rounded floating point arithmetic the interpolators return exactly the given values at the tie points (nodes): linear grid interpolation, VII tie point interpolation, multilinear interpolation, and the cartesian MODIS 5 km to 1 km interpolation up to the conversion to cartesian coordinates and back.", "quantifier": "every precision, round-to-nearest (any tie rule), library, tie positions and representable tie values", "why_tests_cant": "whether a value is hit exactly depends on the rounding of single inputs; tests compare with a tolerance", "anchors": ["geotiepoints/interpolator.py: SingleGridInterpolator", "geotiepoints/viiinterpolator.py: tie_points_interpolation", "geotiepoints/multilinear_cython.pyx: multilinear_interpolation", "geotiepoints/_modis_interpolator.pyx: MODISInterpolator"]}
{"id": "C61", "title": "error bounds of the interpolators, with rounding", "statement": "In rounded floating point arithmetic every interpolated value inside the grid differs from the exact (bi-, multi-)linear interpolation by at most a small constant times u*M (u = 2^-p, M the largest absolute value); for multilinear interpolation, from the exact one at coordinates moved by at most 6u of their distance from the lower bound; for MODIS, where the weights are themselves computed from the zenith angles, plus the error of the weights (C68) times the size of the cell.", "quantifier": "every precision of a few bits, every rounding, all tie positions, tie values and fine points; MODIS with computed weights: mixed precision, zenith angles of at most 70 degrees that differ by at least 0.06 degrees, or by at least 0.01 degrees within 9 degrees of nadir, or are equal and not zero", "why_tests_cant": "a bound over all inputs; tests sample a few and use loose tolerances", "anchors": ["geotiepoints/interpolator.py: SingleGridInterpolator", "geotiepoints/viiinterpolator.py: tie_points_interpolation", "geotiepoints/multilinear_cython.pyx: multilinear_interpolation", "geotiepoints/_modis_interpolator.pyx: MODISInterpolator"]}
{"id": "C62", "title": "MODIS expansion and alignment coefficients are numbers, with rounding", "statement": "In rounded floating point arithmetic the expansion and alignment coefficients of two neighbouring zenith angles of at most 70 degrees are numbers unless both angles are 0: no other pair, however close, makes a denominator 0 or leaves the domain of arcsin or sqrt.", "quantifier": "every precision of at least 12 bits, every rounding, every library accurate to 0.1 percent, every pair of angles", "why_tests_cant": "nearly equal angles are where a difference could vanish by rounding; there are 2^128 pairs", "anchors": ["geotiepoints/_modis_interpolator.pyx: _compute_phi, _compute_theta, _compute_zeta, _compute_expansion_alignment"]}
{"id": "C63", "title": "MODIS functions accept float32 and float64 and keep the type", "statement": "The MODIS interpolation functions, declared for the fused type float32/float64, accept arrays of either type (all arguments alike) and return arrays of the same type; other or differing types raise TypeError or ValueError.", "quantifier": "every conversion, every combination of element types, every size and content", "why_tests_cant": "the tests only use float32 data; that a specialisation can never run is not visible in them", "anchors": ["geotiepoints/_modis_utils.pxd: floating", "geotiepoints/_modis_interpolator.pyx: interpolate, MODISInterpolator.interpolate, _get_coords, _get_coords_5km", "geotiepoints/_simple_modis_interpolator.pyx: interpolate_geolocation_cartesian"]}
{"id": "C64", "title": "accuracy of the back conversion, with rounding", "statement": "In rounded floating point arithmetic the conversion of a cartesian point, off by at most eta (relatively) from the point of the sphere at (lon, lat), returns a longitude within 270 sqrt(eps) + 98 eta degrees of lon on the circle and a latitude within 115 eta + 950 eps degrees of lat (eps: relative error of the roundings and library functions); a point exactly on the 180-degree half plane gets longitude 0.", "quantifier": "every precision of at least 8 bits, every rounding, every library with relative error eps <= 1/4096, every position off the poles, every radius, eta <= 1/100, all three copies of the conversion", "why_tests_cant": "a bound over a continuum; the worst points (near longitude 0 and 180, at the latitude switch) are not where tests sample", "anchors": ["geotiepoints/geointerpolator.py: xyz2lonlat", "geotiepoints/_modis_utils.pyx: xyz2lonlat", "geotiepoints/viiinterpolator.py: _xyz2lonlat"]}
{"id": "C65", "title": "accuracy of the round trip, with rounding", "statement": "In rounded floating point arithmetic a longitude and latitude converted to cartesian coordinates and back returns within 290 sqrt(eps) degrees of longitude (on the circle, off the poles) and 2000 eps degrees of latitude; with float32 arrays and double computation within 0.00004 and 0.00003 degrees. Longitude 180 comes back near 180 or -180.", "quantifier": "every precision of at least 8 bits, every rounding, every library with relative error eps <= 1/4096, every longitude in [-180, 180] and latitude in [-90, 90], all three copies, one or two precisions", "why_tests_cant": "a bound over all 2^128 positions; round trip tests use a few positions and loose tolerances", "anchors": ["geotiepoints/geointerpolator.py: lonlat2xyz, xyz2lonlat", "geotiepoints/_modis_utils.pyx: lonlat2xyz, xyz2lonlat", "geotiepoints/viiinterpolator.py: _lonlat2xyz, _xyz2lonlat"]}
{"id": "C66", "title": "MODIS 5 km to 1 km geolocation at the tie points, with rounding", "statement": "In mixed precision (float32 arrays, double computation) every 1 km pixel at the position of a 5 km tie point is within 0.00004 degrees of longitude (on the circle, off the poles) and 0.00003 degrees of latitude of the tie point.", "quantifier": "every number of scans, both widths, all valid tie points (zenith angles of at most 70 degrees, not both neighbours 0), every library with small relative error", "why_tests_cant": "combines the conversions and the interpolation over all inputs; tests compare a few granules with a tolerance of 0.01 degrees or more", "anchors": ["geotiepoints/_modis_interpolator.pyx: MODISInterpolator.interpolate", "geotiepoints/_modis_utils.pyx: lonlat2xyz, xyz2lonlat"]}
{"id": "C67", "title": "accuracy of geographic grid interpolation, with rounding", "statement": "In rounded floating point arithmetic a geographic grid interpolator (longitudes and latitudes in, longitudes and latitudes out) reports, at every fine point, the position of the exactly interpolated point within 270 sqrt(eps) + 98 eta' degrees of longitude on the circle and 115 eta' + 950 eps degrees of latitude (eta' = eta + 71 eps / cos(lat), eta the relative distance of the exactly interpolated point from the sphere); only within 90 eta' degrees of the 180-degree meridian longitude 0 may be reported.", "quantifier": "every precision of at least 23 bits, every rounding, every library with relative error eps <= 1/4096, every grid, all tie positions, all fine points inside the grid, all options", "why_tests_cant": "end-to-end bound over all inputs; tests compare a few points with a tolerance", "anchors": ["geotiepoints/geointerpolator.py: GeoGridInterpolator, lonlat2xyz, xyz2lonlat", "geotiepoints/interpolator.py: SingleGridInterpolator"]}
{"id": "C68", "title": "accuracy of the MODIS coefficients and weights, with rounding", "statement": "In mixed precision (float32 variables, double constants and functions) the expansion coefficient of two zenith angles a, b is within 48000 eps/g and the alignment coefficient within 900 eps/g of its exact value (g = |a-b| in degrees, 2|a| if a = b); the scan weight of a pixel is within (48000 |s(1-s)| + 2500) eps/g + 80 eps of the exact weight (s: the position in the cell) and the track weight within 1.85 eps.", "quantifier": "every mixed precision with u <= eps <= 2^-20 (float32: 2^-24), double functions with relative error eps/1000, every pair of angles of at most 70 degrees that differ by at least 0.06 degrees, or by at least 0.01 degrees within 9 degrees of nadir, or are equal and not zero, all five conversions, every pixel", "why_tests_cant": "the coefficients are differences of nearly equal angles divided by small ones; how much rounding is amplified depends on the pair of angles, and tests see only the final coordinates of a few granules", "anchors": ["geotiepoints/_modis_interpolator.pyx: _compute_phi, _compute_theta, _compute_zeta, _compute_expansion_alignment, _get_atrack_ascan"]}
{"id": "C69", "title": "accuracy of the MODIS geolocation, with rounding", "statement": "In mixed precision the MODIS interpolation from longitudes, latitudes and zenith angles reports, at every fine pixel, the position of the exactly interpolated point within 270 sqrt(eps_d) + 98 eta' + 190 eps degrees of longitude on the circle and 115 eta' + 95 eps degrees of latitude; eta' is the relative distance of the exactly interpolated point from the sphere plus the propagated rounding of the ties, the weights (C68) and the interpolation (C61), divided by cos(lat). Only within 90 eta' degrees of the 180-degree meridian longitude 0 may be reported.", "quantifier": "all five conversions, every number of scans, every fine pixel whose cell has valid tie points and zenith angles of at most 70 degrees that differ by at least 0.06 degrees, or by at least 0.01 degrees within 9 degrees of nadir, or are equal and not zero, every library with small relative error", "why_tests_cant": "end-to-end bound over all granules; tests compare a few granules with a tolerance", "anchors": ["geotiepoints/_modis_interpolator.pyx: MODISInterpolator.interpolate", "geotiepoints/_modis_utils.pyx: lonlat2xyz, xyz2lonlat"]}
{"id": "C70", "title": "accuracy of VII geolocation, with rounding", "statement": "In rounded floating point arithmetic tie_points_geo_interpolation takes the cartesian path if a latitude exceeds the threshold or two longitudes differ by at least the number after 180, and only if a latitude exceeds it or two longitudes differ by more than 180. Directly interpolated pixels are within 10800 u degrees of longitude and 5400 u degrees of latitude of the bilinear interpolation (u = 2^-p). On the cartesian path the position of the exactly interpolated point is reported within 270 sqrt(eps) + 98 eta' degrees of longitude on the circle and 115 eta' + 950 eps degrees of latitude (eta' = eta + 114 eps/cos(lat)); only within 90 eta' degrees of the 180-degree meridian longitude 0 may be reported.", "quantifier": "every precision of at least 8 bits, every rounding, every library with relative error eps <= 1/4096, every number of scans and ties, every factor (positions up to 2^p), all longitudes and latitudes", "why_tests_cant": "end-to-end bound over all inputs; tests compare a few pixels with a tolerance", "anchors": ["geotiepoints/viiinterpolator.py: tie_points_geo_interpolation, tie_points_interpolation, _lonlat2xyz, _xyz2lonlat"]}
{"id": "C71", "title": "element types of grid and spline interpolation", "statement": "A single grid or spline interpolator returns the double precision result converted element by element to the element type of the data, whether eager or chunked, with the same errors. For integer data every result is the bilinear function without its fraction, hence between the smallest and largest data and less than one away, never NaN, and the data itself at the tie positions (also with rounding). For float32 data the tie values come back bit for bit and every result is within (2^-24 + 38 * 2^-53) M of the bilinear function (M: largest absolute value).", "quantifier": "every interpolator, every conversion, every chunking, all fine points; for the values every grid, every precision and rounding", "why_tests_cant": "element types multiply the input space; the tests use doubles only", "anchors": ["geotiepoints/interpolator.py: SingleGridInterpolator.interpolate_numpy, SingleSplineInterpolator.interpolate_numpy, AbstractSingleInterpolator.interpolate_dask"]}
{"id": "C72", "title": "element types of Interpolator", "statement": "The values an Interpolator returns for data of some element type do not depend on whether the rows are interpolated as well (two-dimensional) or not (one-dimensional).", "quantifier": "every state, every spline library, all data types", "why_tests_cant": "two code paths with different conversions; the tests use doubles only", "anchors": ["geotiepoints/interpolator.py: Interpolator._interp, Interpolator._interp1d"]}
{"id": "C73", "title": "extrapolation of unsigned integer data", "statement": "The borders an Interpolator fills in for data of an unsigned integer type are the straight lines through the two nearest data points.", "quantifier": "every width of the type, all data, all positions", "why_tests_cant": "wrap-around of a difference; needs unsigned data that increases, the tests use doubles only", "anchors": ["geotiepoints/interpolator.py: _linear_extrapolate, Interpolator._extrapolate_rows"]}
{"id": "C74", "title": "integer data where the interpolation is an integer", "statement": "Grid interpolation of integer data returns the bilinear function exactly wherever that is an integer.", "quantifier": "every grid of integer data, every fine point", "why_tests_cant": "a rounding error of one unit in the last place becomes an error of 1; which positions are affected is not predictable from samples", "anchors": ["geotiepoints/interpolator.py: SingleGridInterpolator.interpolate_numpy"]}
{"id": "C75", "title": "accuracy of the simple MODIS geolocation, with rounding", "statement": "In mixed precision the simple MODIS interpolation reports, at every fine pixel, the position of the exact bilinear combination (at row (j+1/2)/f - 1/2 of the scan and column k/f) of the four tie points of the pixel's cell within 270 sqrt(eps_d) + 98 eta' + 190 eps degrees of longitude on the circle and 115 eta' + 95 eps degrees of latitude. eta' is the relative distance of that combination from the sphere plus the propagated rounding errors divided by cos(lat): with rho the accuracy of map_coordinates these are rho inside the scan, 7.01 rho + eps + 3 eps omega to the right of the last tie column, 5.01 times as much plus 2.01 eps + 95 eps omega beyond the first and last tie rows (omega: size of the cell in Earth radii), and 6 eps for the conversion of the tie points. Only within 90 eta' degrees of the 180-degree meridian longitude 0 may be reported.", "quantifier": "both conversions, every number of scans, every number of columns whose indices are float32 numbers, every fine pixel whose cell has valid tie points, every map_coordinates accurate to rho, every library with small relative error", "why_tests_cant": "end-to-end bound over all granules; tests compare a few granules with a tolerance", "anchors": ["geotiepoints/_simple_modis_interpolator.pyx: interpolate_geolocation_cartesian, _compute_interpolated_xyz_scan, _extrapolate_xyz_rightmost_columns, _interpolate_xyz_250, _interpolate_xyz_500", "geotiepoints/_modis_utils.pyx: lonlat2xyz, xyz2lonlat"]}
{"id": "C76", "title": "preset functions accept whole swaths, with rounding", "statement": "In binary floating point of at least 16 bits, modis5kmto1km, modis1kmto500m and modis1kmto250m never raise on any positive number s of whole scans with 512 s <= 2^p: rounding neither moves a tie row to another chunk nor makes two positions equal, and the arrays returned have exactly 5, 2 and 4 times the number of lines, and 1354, 2708 and 5416 columns. metop20kmto1km accepts any number of lines and returns 2048 columns.", "quantifier": "every rounding to nearest, every such number of scans, every longitude/latitude content, every number of cores and order of the workers, every spline library", "why_tests_cant": "positions are quotients such as i/5 that are rounded differently for every index; tests use a few scans", "anchors": ["geotiepoints/__init__.py: metop20kmto1km, modis5kmto1km, modis1kmto500m, modis1kmto250m", "geotiepoints/interpolator.py: Interpolator._fill_row_borders, Interpolator._fill_col_borders, Interpolator._interp"]}
{"id": "C77", "title": "MODIS presets along the tie columns: accuracy with rounding", "statement": "In floating point of at least 23 bits, if the trigonometric functions have relative error eps and the spline library error rho (on the positions the presets use), then in the columns of the tie points every pixel computed by modis5kmto1km, modis1kmto500m and modis1kmto250m (on any number of cores) is near the point of the straight line through the two tie points around its row in its scan (or the two nearest ones, before the first and after the last): off the poles longitude is within 270 sqrt(eps) + 98 t and latitude within 115 t + 950 eps degrees, where t = (16 rho + 89 eps [+ 18 s u delta for 5 km]) / cos lat plus the distance of that point from the sphere; near the 180-degree meridian the longitude may be 0. At the tie pixels of modis5kmto1km the tie longitude and latitude come back within these bounds.", "quantifier": "every number of scans s with 512 s <= 2^p, every longitude and latitude in range, every spline library with error rho, every rounding to nearest, every number of cores and order of the workers", "why_tests_cant": "end-to-end error bound over all granules; tests compare a few granules with a tolerance", "anchors": ["geotiepoints/__init__.py: modis5kmto1km, modis1kmto500m, modis1kmto250m", "geotiepoints/interpolator.py: Interpolator._fill_row_borders, Interpolator._fill_col_borders, Interpolator._interp, _linear_extrapolate", "geotiepoints/geointerpolator.py: GeoInterpolator, lonlat2xyz, xyz2lonlat"]}
{"id": "C78", "title": "declared element type of lazy MODIS results", "statement": "A lazy result of the MODIS functions declares the element type of the longitudes, and every block that can be computed has the declared type. For whole scans in float32 arrays (and float32 or float64 arrays in the simple interpolation) every block can be computed and the values are those of the eager call; for float64 arrays the functions with the zenith angle return a lazy result that declares float64 and of which no block can be computed.", "quantifier": "every conversion, every combination of element types, sizes, chunks and contents", "why_tests_cant": "dask trusts the declaration: a mismatch shows up only in later computations; tests use float32 only", "anchors": ["geotiepoints/_modis_utils.pyx: scanline_mapblocks, _call_map_blocks_interp, _map_blocks_handler", "geotiepoints/_modis_interpolator.pyx: interpolate", "geotiepoints/_simple_modis_interpolator.pyx: interpolate_geolocation_cartesian"]}
{"id": "C79", "title": "version string of a checkout", "statement": "render_pep440 gives the tag on a clean tagged commit; otherwise a valid PEP 440 version with the public part of the tag, so that versions between two tags sort by the number of commits after the tag, and the tag precedes all of them; from the string the tag, the number of commits, the commit and the dirty flag can be read back. Without tags it is a valid version with public part 0.", "quantifier": "every valid tag, distance, commit and dirty flag", "why_tests_cant": "tests of the package never look at the version; a wrong order shows up only for particular pairs (9 and 10 commits)", "anchors": ["geotiepoints/version.py: render_pep440, plus_or_dot"]}
{"id": "C80", "title": "output of git describe is understood", "statement": "For a line TAG-NUM-gHEX[-dirty] with the tag prefix, git_pieces_from_vcs finds exactly tag, distance, commit and dirty flag, even if the tag contains hyphens; it reports a tag for no other line; render_git_describe_long writes the line back. In a working tree, on a branch or detached, get_versions reports TAG, TAG+NUM.gHEX or TAG+NUM.gHEX.dirty (without tags 0+untagged.COUNT.gHEX), the revision, the flag and the ISO date. The branch is the one git reports, or when detached master if it contains the commit, else the first that does.", "quantifier": "every tag, distance, commit, branch, date and every answer of git of this form", "why_tests_cant": "all possible states of a repository; tests run in one", "anchors": ["geotiepoints/version.py: git_pieces_from_vcs, run_command, render_git_describe_long, render, get_versions"]}
{"id": "C81", "title": "version of an archive is the release", "statement": "The version of a git archive is the tag of the commit without its prefix, whatever other references point to the commit; with several version tags it is the latest version.", "quantifier": "every list of references of the commit, every date", "why_tests_cant": "needs archives of many commits; tests use none", "anchors": ["geotiepoints/version.py: git_versions_from_keywords"]}
{"id": "C82", "title": "version lookup never fails", "statement": "get_versions always returns: without git and without keywords it takes the version from the name of the directory of the source archive, and otherwise reports 0+unknown.", "quantifier": "every answer or failure of git, every location of the file", "why_tests_cant": "depends on the environment of the installation; tests run in a working tree", "anchors": ["geotiepoints/version.py: get_versions, versions_from_parentdir, git_pieces_from_vcs, get_config", "geotiepoints/__init__.py: __version__"]}
{"id": "C83", "title": "other version styles give valid versions", "statement": "render gives the tag on a clean tagged commit in every style but git-describe-long, raises ValueError for an unknown style, reports 'unknown' with the error if git was not understood, and gives valid PEP 440 versions in the PEP 440 styles; the version of a changed working tree differs from that of the unchanged one.", "quantifier": "every style, tag, distance, branch, commit and dirty flag", "why_tests_cant": "only one style is configured; the others are never run", "anchors": ["geotiepoints/version.py: render, render_pep440_branch, render_pep440_pre, pep440_split_post, render_pep440_post, render_pep440_post_branch, render_pep440_old, render_git_describe"]}
{"id": "C84", "title": "keywords read from the file are those of the module", "statement": "git_get_keywords finds in the text of version.py, before and after the substitution by git archive, the values get_keywords returns: the last definitions of the three variables, whatever else is in the file; a keyword that is not defined is missing, and then the version is looked for elsewhere.", "quantifier": "every file, indentation and value", "why_tests_cant": "the function runs during packaging only; no test calls it", "anchors": ["geotiepoints/version.py: git_get_keywords, get_keywords, git_versions_from_keywords"]}
{"id": "C85", "title": "the five-dimensional kernel is right, and cannot be reached", "statement": "multilinear_interpolation_5d stays inside its arrays, does not depend on the order of the iterations, and reproduces every function affine in each of the five coordinates, inside and outside the grid; multilinear_interpolation refuses points of five or more coordinates, so that it is never called.", "quantifier": "every grid of five axes with at least two nodes each and fewer than 2^31 nodes, every multi-affine function, every point, every order of the iterations", "why_tests_cant": "the kernel is unreachable from Python; 32 corners written out by hand", "anchors": ["geotiepoints/multilinear_cython.pyx: multilinear_interpolation_5d, multilinear_interpolation"]}
{"id": "C86", "title": "the grid of an interpolator is that of its limits", "statement": "MultilinearInterpolator.grid is at any time the grid of the limits the object interpolates with, whatever was done to the object before.", "quantifier": "every limits, orders, arithmetic and history of reading the grid, setting values, interpolating, assigning the limits and writing into arrays", "why_tests_cant": "histories are unbounded; tests read the grid once", "anchors": ["geotiepoints/multilinear.py: MultilinearInterpolator.grid, MultilinearInterpolator.__init__"]}
{"id": "C87", "title": "an interpolator keeps the values it was given", "statement": "After set_values the object interpolates the values at the time of the call, whatever the caller writes into the array afterwards.", "quantifier": "every array, element type, layout, arithmetic and later history", "why_tests_cant": "depends on element type and layout of the argument; tests do not reuse the array", "anchors": ["geotiepoints/multilinear.py: MultilinearInterpolator.set_values, MultilinearInterpolator.interpolate"]}
{"id": "C88", "title": "results of interpolate stay as returned", "statement": "The list Interpolator.interpolate returns keeps the arrays it held when the call returned, whatever is done with the object afterwards.", "quantifier": "every object, arithmetic, spline and history of fill_borders and interpolate calls", "why_tests_cant": "histories are unbounded; tests call interpolate once per object", "anchors": ["geotiepoints/interpolator.py: Interpolator.interpolate, Interpolator.__init__"]}
{"id": "C89", "title": "fill_borders can be repeated", "statement": "After fill_borders(\"y\") a second fill_borders(\"y\") leaves an object that can still interpolate.", "quantifier": "every object without chunks with tie rows at positions from 0 below their number, data and splines", "why_tests_cant": "tests fill borders once; the failure shows only in a later call", "anchors": ["geotiepoints/interpolator.py: Interpolator.fill_borders, Interpolator._fill_row_borders, Interpolator._interp"]}
{"id": "C90", "title": "a failing fill_borders leaves the object as it was", "statement": "If Interpolator.fill_borders raises, the tie data and positions are those before the call.", "quantifier": "every object, arithmetic, list of dimensions and number of tie arrays", "why_tests_cant": "the object after an exception is not looked at in tests", "anchors": ["geotiepoints/interpolator.py: Interpolator.fill_borders, Interpolator._fill_row_borders, Interpolator._fill_col_borders"]}
{"id": "C91", "title": "geographic interpolation follows the sphere", "statement": "The longitude and latitude reported for an interpolated point are those of its direction from the centre of the Earth, so that positions between tie points lie where the sphere puts them.", "quantifier": "every convex combination of points of the sphere; every grid of positions, longitudes, latitudes and fine points of GeoGridInterpolator", "why_tests_cant": "the error depends continuously on the distance of the tie points; tests compare a few positions with tolerances", "anchors": ["geotiepoints/geointerpolator.py: xyz2lonlat, _work_with_lonlats, GeoGridInterpolator"]}
{"id": "C92", "title": "fine rows of the simple MODIS interpolator are centred", "statement": "For every pair of resolutions interpolate_geolocation_cartesian accepts, fine rows are interpolated at their centres, the coarse rows being divided into equal fine rows.", "quantifier": "every coarse resolution known, every fine resolution and row", "why_tests_cant": "tests use the two factors for which the formula for the offset holds", "anchors": ["geotiepoints/_simple_modis_interpolator.pyx: _compute_yx_coordinate_arrays, interpolate_geolocation_cartesian", "geotiepoints/simple_modis_interpolator.py: interpolate_geolocation_cartesian"]}
{"id": "C93", "title": "interpolation between neighbouring tie points follows the great circle at uniform speed", "statement": "Between two neighbouring tie points of a row or column, the fine points reported are the points of the great circle arc between the two, at the same fraction of the way along the arc as their positions are between the positions of the tie points.", "quantifier": "every grid of positions, longitudes, latitudes and fine points of GeoGridInterpolator on rows and columns of tie points; every two points of the sphere", "why_tests_cant": "distances along the arc are not looked at in tests, and the deviation grows with the square of the spacing of the tie points", "anchors": ["geotiepoints/geointerpolator.py: xyz2lonlat, _work_with_lonlats, GeoGridInterpolator"]}
{"id": "C94", "title": "a VII pixel depends only on the four tie points around it", "statement": "The longitude and latitude of a pixel of tie_points_geo_interpolation are determined by the four tie points of its cell, whatever the other tie points of the array are and whether the array is interpolated in degrees or in cartesian coordinates.", "quantifier": "every two arrays of longitudes and latitudes, numbers and sizes of scans and tie point factors; every weighted mean of points of the sphere; every grid of GeoGridInterpolator; every pixel inside a cell of the simple MODIS interpolator", "why_tests_cant": "the choice is made for a whole array, so that the dependence shows only when two arrays with a common cell are compared", "anchors": ["geotiepoints/viiinterpolator.py: tie_points_geo_interpolation, _lonlat2xyz, _xyz2lonlat", "geotiepoints/geointerpolator.py: xyz2lonlat, _work_with_lonlats, GeoGridInterpolator", "geotiepoints/_simple_modis_interpolator.pyx: interpolate_geolocation_cartesian"]}
{"id": "C95", "title": "longitudes and latitudes are matched the same way in both ways of interpolating", "statement": "tie_points_geo_interpolation matches longitudes with latitudes by position and accepts the same arrays, whatever the dimension names and labels of the DataArrays and whatever the values are.", "quantifier": "every two labelled arrays, arithmetic, scan size, factor and thresholds", "why_tests_cant": "names and labels have an infinite number of combinations, and tests give both arrays the same names and no labels", "anchors": ["geotiepoints/viiinterpolator.py: tie_points_geo_interpolation, tie_points_interpolation, _lonlat2xyz"]}
{"id": "C96", "title": "turning or mirroring the Earth turns or mirrors the interpolated positions", "statement": "If all tie points are turned about the polar axis by the same angle (longitudes modulo 360 degrees), or replaced by their mirror images with east and west or north and south exchanged, every interpolated position is turned or mirrored in the same way.", "quantifier": "every turn and both mirror images; every point of space for the conversions; every grid of GeoGridInterpolator, pixel and conversion of both MODIS interpolators, scan and pixel of the VII interpolation, scan and pixel of the MODIS and Metop presets with any spline that is a weighted sum of its data, any number of cores; every longitude, latitude and zenith angle", "why_tests_cant": "a relation between two runs; tests fix one orientation of the Earth", "anchors": ["geotiepoints/geointerpolator.py: xyz2lonlat, lonlat2xyz, _work_with_lonlats, GeoGridInterpolator", "geotiepoints/_modis_utils.pyx: lonlat2xyz, xyz2lonlat", "geotiepoints/_modis_interpolator.pyx: MODISInterpolator.interpolate, _compute_fine_xyz", "geotiepoints/_simple_modis_interpolator.pyx: interpolate_geolocation_cartesian", "geotiepoints/viiinterpolator.py: tie_points_geo_interpolation, _lonlat2xyz, _xyz2lonlat", "geotiepoints/__init__.py: modis5kmto1km, modis1kmto500m, modis1kmto250m, metop20kmto1km"]}
{"id": "C97", "title": "negated longitudes give exactly the negated longitudes, with rounding too", "statement": "If every tie longitude is replaced by its negative, every interpolated longitude is replaced by its negative and every latitude stays what it was, with no difference in the last digit, and a call that raises an exception raises the same one.", "quantifier": "every arithmetic whose rounding treats x and -x alike, with an odd sine and an even cosine (exact, double precision, single and double precision mixed); every longitude, latitude, zenith angle, NaN included; both MODIS interpolators, VII, the presets with any number of cores and any order of completion, grid and spline interpolators with and without chunks; every interpolation library that negates its result with its data; fill values that are their own negatives (NaN)", "why_tests_cant": "a relation between two runs for every input, and for every order of completion and every partition into chunks", "anchors": ["geotiepoints/geointerpolator.py: xyz2lonlat, lonlat2xyz, GeoInterpolator, _work_with_lonlats, GeoGridInterpolator, GeoSplineInterpolator", "geotiepoints/_modis_utils.pyx: lonlat2xyz, xyz2lonlat", "geotiepoints/_modis_interpolator.pyx: MODISInterpolator.interpolate, _compute_fine_xyz", "geotiepoints/_simple_modis_interpolator.pyx: interpolate_geolocation_cartesian", "geotiepoints/viiinterpolator.py: tie_points_geo_interpolation, _lonlat2xyz, _xyz2lonlat", "geotiepoints/__init__.py: modis5kmto1km, modis1kmto500m, modis1kmto250m, metop20kmto1km, _multi", "geotiepoints/interpolator.py: Interpolator, MultipleGridInterpolator, MultipleSplineInterpolator"]}
{"id": "C98", "title": "a pixel of the zenith-angle MODIS interpolator stays near the tie points of its cell", "statement": "There is a bound, valid for all zenith angles of at most 70 degrees, on how far outside its cell a pixel can be placed along the scan.", "quantifier": "all five conversions; every pixel; every pair of zenith angles of at most 70 degrees that are not both zero; exact arithmetic", "why_tests_cant": "the coefficient grows without bound only as two angles approach each other, while it is small for equal angles and for every pair of angles in a real file", "anchors": ["geotiepoints/_modis_interpolator.pyx: _compute_expansion_alignment (lines 41-70), _calculate_atrack_ascan (lines 328-344)"]}
{"id": "C99", "title": "the interpolators of 1 km MODIS data agree with each other", "statement": "In every row of the columns of tie points the presets modis1kmto500m and modis1kmto250m and the simple interpolators give the same longitude and latitude, whatever the cubic spline does between the columns. A 500 m pixel of the simple interpolator is the point half way between the two 250 m points of its column. The zenith-angle interpolator differs from the simple one, in each cartesian component, by at most 2.7 W (2|s(1-s)| + 0.02/g), where s is the position of the column in its cell, g the gap between the zenith angles of the cell and W the distance of its tie points.", "quantifier": "both resolutions; any number of scans; all longitudes and latitudes; every row and every column (presets: columns of tie points); zenith angles of at most 70 degrees that are not both zero; exact arithmetic", "why_tests_cant": "the tests compare each function with its own stored result; that four programs with different coordinates, cells and border rules give the same positions is not tested anywhere", "anchors": ["geotiepoints/__init__.py: modis1kmto500m, modis1kmto250m (lines 97-150)", "geotiepoints/_simple_modis_interpolator.pyx: _interpolate_xyz_250, _interpolate_xyz_500 (lines 157-230)", "geotiepoints/_modis_interpolator.pyx: _calculate_atrack_ascan (lines 328-344)"]}
{"id": "C100", "title": "errors of the tie points are amplified by a known factor", "statement": "Tie values that differ by at most e give interpolated values that differ by at most e inside the tie points (VII, grid and multilinear interpolation), and by at most (1+2d)(1+2d')e at the distances d, d' of the row and the column outside them, for bilinear interpolation with linear extension; this factor is attained for every position. For the simple MODIS interpolator it is 3 at 500 m and 4.375 at 250 m.", "quantifier": "all tie values, all pairs of data sets that differ by at most e, every position; any size of grid and number of scans; exact arithmetic", "why_tests_cant": "the worst pattern of errors has alternating signs around one border pixel and another pattern belongs to every pixel", "anchors": ["geotiepoints/_simple_modis_interpolator.pyx: _interpolate_xyz_250, _interpolate_xyz_500 (lines 157-230)", "geotiepoints/viiinterpolator.py: tie_points_interpolation", "geotiepoints/geointerpolator.py: SingleGridInterpolator", "geotiepoints/multilinear_cython.pyx: multilinear_interpolation"]}
{"id": "C101", "title": "the pixels of a row of the zenith-angle MODIS interpolator are in order along the scan", "statement": "Of two pixels of one row, the one with the larger column is placed further along the row, where the place is the index of the tie-point cell plus the scan weight of the pixel.", "quantifier": "all pairs of columns of all rows of a scan; five conversions; zenith angles of at most 70 degrees; exact arithmetic", "why_tests_cant": "an exchange of two neighbouring pixels is far below the tolerance of the comparison with stored reference data, and depends on the zenith angles of two cells", "anchors": ["geotiepoints/_modis_interpolator.pyx: _compute_expansion_alignment (lines 41-70), _calculate_atrack_ascan (lines 328-344), _get_coords_1km, _get_coords_5km (lines 210-260)"]}
{"id": "C102", "title": "no overflow in the geolocation arithmetic", "statement": "No step of the conversions between angles and positions, nor of the two MODIS interpolators, gives a number too large for the format (float32 or float64) it is stored in; the result is the same as with numbers of unbounded size.", "quantifier": "all inputs of at most 1e10 in size or NaN, any pattern of NaN, nearly equal zenith angles included; five conversions, any number of scans; any rounding, library functions of a given accuracy", "why_tests_cant": "the quotients by differences of nearly equal angles are largest for pairs of neighbouring floats, which random inputs never hit", "anchors": ["geotiepoints/geointerpolator.py: lonlat2xyz, xyz2lonlat", "geotiepoints/_modis_utils.pyx: lonlat2xyz, xyz2lonlat", "geotiepoints/viiinterpolator.py: _lonlat2xyz, _xyz2lonlat", "geotiepoints/_modis_interpolator.pyx: MODISInterpolator.interpolate, _compute_expansion_alignment, _calculate_atrack_ascan", "geotiepoints/_simple_modis_interpolator.pyx: interpolate_geolocation_cartesian"]}
{"id": "C103", "title": "interpolated longitudes keep their order along a row, and latitudes down a column", "statement": "If in every cell of a row of tie points the two tie points on the right are east of the two on the left, by less than 180 degrees, then the longitudes of a row of pixels between them strictly increase from the first to the last; if in every cell of a column the tie points of the second row are north of those above, at latitudes below about 53 degrees, the latitudes of a column of pixels strictly increase. Without the limit of 180 degrees the order is lost.", "quantifier": "the grid, VII and simple MODIS interpolators; all pixels inside the tie points, any positions inside a grid; any longitudes and latitudes (poles and the 180-degree meridian excluded) and factors; exact arithmetic", "why_tests_cant": "the order of two neighbouring pixels is below every tolerance of a comparison with stored values, and holds or fails for each of infinitely many shapes of cells", "anchors": ["geotiepoints/geointerpolator.py: GeoGridInterpolator, xyz2lonlat", "geotiepoints/viiinterpolator.py: tie_points_geo_interpolation, _xyz2lonlat", "geotiepoints/_simple_modis_interpolator.pyx: interpolate_geolocation_cartesian"]}
{"id": "C104", "title": "the zenith-angle expansion reproduces the viewing geometry of the instrument", "statement": "An instrument at the height of the code above a sphere sees two neighbouring tie points under the zenith angles given for them. A point it sees a fraction s of the way between them in scan angle is placed by the scan weight of the code, apart from the alignment term, at an angle from the nadir (at the centre of the Earth) that is exact for s = 1/2 and otherwise wrong by at most 18|s(s-1/2)(s-1)| times the cube of the scan angle between the tie points. Pixels of modis_5km_to_1km on the rows of tie points are reported in the direction of a point of the scan whose angle is right up to the cube of that scan angle. The same bound holds for points beyond the two tie points. Equal steps instead of the expansion are wrong by at least 0.05 times its square.", "quantifier": "all zenith angles of at most 70 degrees that are not both zero (runs: at most 5 degrees apart), on one side of the nadir or, up to 5 degrees, on both; every fraction, also outside [0, 1] if the zenith angle there is at most 70 degrees too; every orientation of the scan on the sphere; five conversions; exact arithmetic", "why_tests_cant": "the references at 500 m and 250 m were made with this very function (testdata/create_modis_test_data.py), and at 1 km two scans of real data are compared to within 25 or 110 metres; that the formula agrees with the geometry it is derived from to third order, for every pair of zenith angles, cannot be seen from samples", "anchors": ["geotiepoints/_modis_interpolator.pyx: _compute_expansion_alignment (lines 41-70), _calculate_atrack_ascan (lines 328-344), MODISInterpolator.interpolate"]}
{"id": "C105", "title": "the alignment term reproduces the curvature of the rows between two rows of tie points", "statement": "Lines of sight parallel to the plane of the scan, half the spacing of the rows of tie points beside it, meet the sphere further out than those in the plane. The alignment coefficient of the code times the angle between the two tie points is, in units of the radius, exactly four times this distance. A pixel the fraction T of the way between the rows is moved by the alignment term by the difference between its own distance and that of the tie points, with an error of at most ten times the fourth power of half the spacing over the radius. Together with the expansion the scan weight places every pixel between its tie points where it is seen, up to the sum of the two errors.", "quantifier": "all different zenith angles of at most 70 degrees on one side of the nadir; row spacings up to 5 km; every fraction between two rows and two columns; five conversions; exact arithmetic", "why_tests_cant": "the displacement is less than ten metres for 5 km data and less than half a metre for 1 km data, below the tolerances of the tests (25 metres for 5 km data at 1 km, 5 and 8.3 metres for 1 km data), and the references at 500 m and 250 m were made with this very function", "anchors": ["geotiepoints/_modis_interpolator.pyx: _compute_expansion_alignment (lines 41-70), _calculate_atrack_ascan (lines 328-344)"]}
{"id": "C106", "title": "positions computed from float32 data are near the points that the instrument sees", "statement": "modis_5km_to_1km as the code runs it, with float32 arrays and double constants and functions: on the rows of the tie points, the reported longitude and latitude are within an explicit bound of those of the point that the instrument sees the fraction m/5 of the way between two tie points in scan angle. The bound is the sum of the cube of the scan angle between the tie points (expansion), a seventh of the square of their distance (chord) and the rounding error, over the cosine of the latitude. Example: less than 0.002 degrees of longitude for zenith angles of 50 and 50.1 degrees at the equator.", "quantifier": "any number of whole scans of 270 or 271 columns; every row of tie points, every column between the first and the last column of tie points; all tie points on the circle of a scan in agreement with their zenith angles, of at most 70 degrees, not too close together and at most 5 degrees apart; every arithmetic of the stated precision", "why_tests_cant": "an end-to-end bound over all viewing geometries and all roundings; the tests compare two scans of one granule", "anchors": ["geotiepoints/_modis_interpolator.pyx: _compute_expansion_alignment (lines 41-70), _calculate_atrack_ascan (lines 328-344), MODISInterpolator.interpolate", "geotiepoints/modisinterpolator.py: modis_5km_to_1km (lines 35-40)"]}
{"id": "C107", "title": "no overflow in the VII and grid interpolators", "statement": "No step of the VII tie point interpolation, with or without the conversion to cartesian coordinates, nor of the construction and evaluation of the linear grid interpolators, gives a number too large for the format; the outcome, results or error, is the same as with numbers of unbounded size. The sizes allowed cannot be dropped: two tie points with the largest number of the format and its opposite give no number even at the first of them.", "quantifier": "VII: any data of at most a fiftieth of the largest number of the format, longitudes and latitudes of at most 1e10, any thresholds, sizes for which pixel numbers are exact; grids: any ascending positions of at most a quarter of the largest number and data of at most a twelfth, every fine point inside the grid, any options; NaN anywhere; any rounding, library functions of a given accuracy", "why_tests_cant": "the largest intermediate result depends on the spacing of positions and the signs of neighbours, so that no list of samples reaches it; the tests use ordinary angles only", "anchors": ["geotiepoints/viiinterpolator.py: tie_points_interpolation, tie_points_geo_interpolation, _lonlat2xyz, _xyz2lonlat", "geotiepoints/interpolator.py: SingleGridInterpolator", "geotiepoints/geointerpolator.py: GeoGridInterpolator, lonlat2xyz, xyz2lonlat"]}
{"id": "C108", "title": "the simple MODIS interpolator in the viewing geometry of the instrument", "statement": "The instrument takes equal steps of its scan angle, the simple interpolator equal steps between tie points. For tie points that an instrument at the height of the zenith-angle interpolator sees under zenith angles of at most 70 degrees, equal steps are wrong by at most 3.2 s(1-s) times the square of the scan angle between the tie points, s being the fraction of the way. A pixel of the simple interpolation of 1 km data between two rows and two columns of tie points is reported in the direction of the point between the two scans, at an angle from the nadir that is right up to the square of that scan angle.", "quantifier": "all zenith angles of at most 70 degrees, on either side of the nadir (runs: at most 5 degrees apart), every fraction, any two orientations of the scans of the two rows; both conversions, any number of scans and columns, all pixels inside the tie points; exact arithmetic", "why_tests_cant": "the tests compare one file of real data with stored results of the zenith-angle interpolator to within 16 and 27.35 metres, from which neither the order of accuracy nor its validity for other geometries can be seen", "anchors": ["geotiepoints/_simple_modis_interpolator.pyx: interpolate_geolocation_cartesian, _compute_interpolated_xyz_scan, _interpolate_xyz_250, _interpolate_xyz_500", "geotiepoints/simple_modis_interpolator.py: modis_1km_to_250m, modis_1km_to_500m"]}
{"id": "C109", "title": "where the zenith-angle MODIS interpolator places the pixels of a cell, in space", "statement": "Four tie points are the points of the sphere seen at two scan angles, half the row spacing on either side of the plane of the scan; a pixel in any row and column of the scan is seen along its own line of sight, at the fractions of the way between the tie points that the code takes for it. The point that the code makes of the four tie points, with the expansion and the alignment coefficient in the weight along the scan, is, up to its distance from the centre, near the point seen: with h the difference of the scan angles and e half the row spacing in radii, within (18|s(s-1/2)(s-1)| + 0.2 W^3) h^3 + 20 U W e^2 h + 400 U e^4 radii across the track (in each of two coordinates) and U e (0.15 (W d)^2 + 1.2 U e^2) radii along the track, d being the distance of the tie points along the scan in radii and U the larger one of 1 and (2 T - 1)^2, where T is the fraction of the way between the rows (U is 1 between the rows and at most 7.3 in the extrapolated rows at the borders of a scan), s the fraction between the columns, and W equal to 1 for pixels between the columns and at least 1.13|2s-1| for those beyond; the distance from the centre is right to 0.15 (W d)^2 + 1.2 U e^2 of the radius. Every run of the five conversions reports what the conversion to longitude and latitude makes of such a point, and the longitude is that of this point.", "quantifier": "all different zenith angles of at most 70 degrees and at most 5/W degrees apart on one side of the nadir; row spacings up to 5 km; every row and column of a scan, also the extrapolated ones (for extrapolated columns: seen at a zenith angle of at most 70 degrees); every position of the satellite; any number of whole scans; five conversions; exact arithmetic", "why_tests_cant": "a comparison with the true geometry over a continuum of viewing angles and orientations; the tests compare two scans of one granule with references of which those at 500 m and 250 m were made with this very function", "anchors": ["geotiepoints/_modis_interpolator.pyx: _compute_expansion_alignment (lines 41-70), _calculate_atrack_ascan (lines 328-344), _compute_fine_xyz_component (lines 379-398), MODISInterpolator.interpolate"]}
{"id": "C110", "title": "positions computed from float32 data are near the points that the instrument sees, for every pixel of every conversion", "statement": "Every conversion of the zenith-angle interpolator as the code runs it, with float32 arrays and double constants and functions: every pixel, also those extrapolated before the first and behind the last rows and columns of tie points, is reported within an explicit bound of the longitude and latitude of the point that the instrument sees for it (at the position between the tie points that the code takes for the pixel, see C31), beside the plane of the scan as well as in it. The bound is the sum of the error of the interpolation (1.42 G h^3 + (W d)^2/6 + U e^2 (1.3 + 29 W h), with G = 18|s(s-1/2)(s-1)| + 0.2 W^3, h the scan angle between the tie points, d their distance along the scan and e half their distance along the track, in radii, and s, U and W as in C109; U and W are 1 between the tie points and more in the extrapolated rows and columns) and of the rounding error, over the cosine of the latitude. Example: less than 0.006 degrees for a pixel of 5 km data at zenith angles of 50 and 50.1 degrees.", "quantifier": "five conversions, any number of whole scans, every pixel; all tie points in agreement with their zenith angles, different, of at most 70 degrees, not too close together and at most 5/W degrees apart; every position of the satellite; every arithmetic of the stated precision", "why_tests_cant": "an end-to-end bound over all viewing geometries, orientations and roundings; the tests compare two scans of one granule", "anchors": ["geotiepoints/_modis_interpolator.pyx: _compute_expansion_alignment (lines 41-70), _calculate_atrack_ascan (lines 328-344), _compute_fine_xyz_component (lines 379-398), MODISInterpolator.interpolate", "geotiepoints/modisinterpolator.py: modis_1km_to_250m, modis_1km_to_500m, modis_5km_to_1km, modis_5km_to_500m, modis_5km_to_250m"]}
{"id": "C111", "title": "positions computed from float32 data by the simple MODIS interpolator are near the points that the instrument sees", "statement": "Both conversions of the simple interpolator as the code runs it, with float32 arrays, double constants and functions, and any map_coordinates of a stated accuracy: every pixel, also those extrapolated before the first and behind the last rows and behind the last column of tie points, is reported within an explicit bound of the longitude and latitude of the point that the instrument sees for it. Compared with C110 the bound has the additional term k (3.21|s(1-s)| h^2 + 1.58 U e^2), the price of equal steps without expansion and alignment (h the scan angle between the tie points, e half their distance along the track in radii, s the fraction between the columns, k and U 1 between the tie points), and smaller rounding errors. Example: less than 0.001 degrees for a pixel at 250 m between zenith angles of 50 and 50.1 degrees.", "quantifier": "both conversions, any number of whole scans, any number of columns from 2 on whose fine columns float32 can count, every pixel; all tie points seen under different zenith angles of at most 70 degrees and at most 5/W degrees apart (W is 1 between the columns, at least 1.13|2s-1| behind the last); every position of the satellite; every arithmetic and every map_coordinates of the stated precision", "why_tests_cant": "an end-to-end bound over all viewing geometries, orientations and roundings; the tests compare one file of real data with stored results of the zenith-angle interpolator to within 16 and 27.35 metres", "anchors": ["geotiepoints/_simple_modis_interpolator.pyx: interpolate_geolocation_cartesian, _compute_interpolated_xyz_scan, _interpolate_xyz_250, _interpolate_xyz_500", "geotiepoints/simple_modis_interpolator.py: modis_1km_to_250m, modis_1km_to_500m"]}
{"id": "C112", "title": "no overflow in the multilinear interpolator", "statement": "Inside the grid no step of the multilinear interpolation gives a number too large for the format: the result is the one of arithmetic with numbers of unbounded size. The same holds of the nodes in the grid attribute, including the errors it raises. A limit for the ends of the grid is needed: on an axis from minus the largest number to the largest number the last node gets no number as its result.", "quantifier": "one to four dimensions, any number of nodes that int and the format can count, any number of value rows and (up to 2^31) points, any order of the parallel loop; ends of the grid and values of at most a two-thousandth of the largest number of the format (nodes: ends of at most a tenth), values that are NaN (nodes: ends that are NaN); any rounding", "why_tests_cant": "the largest intermediate result depends on the length of each axis, the position in the cell and the signs of up to sixteen values; the only test uses one grid of five by five nodes between -1 and 1", "anchors": ["geotiepoints/multilinear.py: mlinspace, MultilinearInterpolator.interpolate, MultilinearInterpolator.grid", "geotiepoints/multilinear_cython.pyx: multilinear_interpolation_1d, multilinear_interpolation_2d, multilinear_interpolation_3d, multilinear_interpolation_4d"]}
{"id": "C113", "title": "no overflow in the extrapolation of borders", "statement": "No step of fill_borders gives a number too large for the format: the outcome (success or the error), the tie point data and the positions left behind are those of arithmetic with numbers of unbounded size, for any chunk size and also when positions are repeated or out of order. A limit for the data is needed: if two neighbouring values are the largest number and minus it, every value extrapolated from them is no finite number.", "quantifier": "each dimension given at most once, in either order, also names that are no dimension; any number of arrays and columns, up to 2^31 rows, fine rows and chunk size; positions that are integers of at most 2^31; data that are NaN or at most 10^10; any rounding; a format with numbers up to at least 10^37", "why_tests_cant": "the size of an extrapolated value depends on all positions and on the results of the dimension filled before it; the tests extrapolate arrays of values below 20 at one set of positions, and the test of both dimensions together is commented out", "anchors": ["geotiepoints/interpolator.py: _linear_extrapolate, Interpolator.fill_borders, Interpolator._extrapolate_cols, Interpolator._fill_col_borders, Interpolator._extrapolate_rows, Interpolator._fill_row_borders"]}
