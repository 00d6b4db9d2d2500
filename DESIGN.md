# Formal model of pytroll/python-geotiepoints: design

## Approach

One *polymorphic* model of the code, written over a law-free arithmetic interface.

* `Verif.Arith α` / `Verif.Trig α` are interfaces (operations only, no laws) standing for "the floating
  point arithmetic the code runs on". Every modelled function is polymorphic in `α`.
* Structural theorems (memory safety, initialisation, scan independence, locality, chunking = no
  chunking, schedule independence) are proved for **every** `α`: they use no law of arithmetic and so
  hold bit for bit for IEEE arithmetic.
* Numerical theorems (round trips, tie-point reproduction, affine exactness, ranges) are proved for
  `α = FP K`: exact arithmetic on an ordered field `K` (ℝ when trigonometry is involved) extended with one
  non-number `bad` (NaN; infinities are merged with it). Division by zero, `sqrt` of a negative
  number, `asin`/`acos` outside [-1, 1] give `bad`; every comparison with `bad` is false. So Lean's
  totalised `x / 0 = 0` never makes a theorem true.
* `Fl r` (`Verif/Base/Fl.lean`) is a third instance: binary floating point with `r.p` bits, every operation rounded to
  nearest (any rule for ties), unbounded exponent (no overflow or underflow), one non-number, and arbitrary library
  functions `sin`, `cos`, `asin`, `acos` with representable values. Theorems over `Fl r` hold for float32 (`p = 24`) and
  double (`p = 53`) alike, but one precision is used throughout a computation.
* `Mx q` (`Verif/Base/Mx.lean`) is the arithmetic the Cython code of the MODIS functions runs on: values are C integers,
  `float`s and `double`s, each operation is done in the widest type of its operands and rounded there, library functions are
  double, and assignment to a `floating` variable or array rounds to `float` (`Trig.toFloating` in the model, placed at each
  assignment). Theorems named `..._mixed` are over it. Assumptions: an integer literal combined with a `float` gives a `float`
  (C's rule; `1 - s_s`, `4 * e`, `x / f`), and `d ** 2` of a `float` is the rounded `float` product.
* `Float` is a fifth instance: the same model is *executed* on the vectors of the repository's own test
  suite (`#guard`s in `Verif/Tests`). These are tests of the model's fidelity, not proofs. See "Fidelity of the model".

Python exceptions are values (`Except Err`); an out-of-bounds access in Cython code compiled with
`boundscheck=False` is the error `Err.ub`. Memory from `np.empty` has arbitrary content, given as an
argument, over which the theorems quantify.

Imperative loops are modelled as loops (`loop n body`) over explicit buffers, not as closed formulas; the
closed formulas are in `Verif/Spec` and are related to the loops by proof.

## Layout

* `Verif/Base`  – arithmetic interface, `FP`, `Fl`, `Mx`, `Ov` (overflow), arrays, loops.
* `Verif/Model` – the model, one file per repository module, each definition citing file and lines.
* `Verif/Spec`  – small specifications used in statements.
* `Verif/Proofs` – helper lemmas.
* `Verif/Props` – the property theorems, with non-vacuity examples beside them.
* `Verif/Tests` – executable checks of the model on the repository's test vectors (tests, not proofs).

## Fidelity of the model

Tests, not proofs. `Verif/Tests` runs the model over `Float` on the numbers of the repository's tests: borders, rows and
columns of `Interpolator`/`GeoInterpolator`; the cubic grid and its chunked evaluations (with a not-a-knot spline written
for the tests); geographic grid and spline interpolators; VII; multilinear; `get_scene_splits`; `modis5kmto1km` on one
scan (12 of its columns); the MODIS formulas on edge and middle columns of one scan. All pass with the tolerances of the
repository.

`Verif/Tests/ModisData.lean` runs (on request, see `fidelity/dump.py`) the pixel formulas on the whole of `testdata/modis_test_data.h5` (a small HDF5 reader is in `fidelity/`, since
no library is available). Largest distance from the expected positions, in metres, with the limit of the repository's
test in parentheses: 1 km to 500 m 4.67 (5); 1 km to 250 m 8.29 (8.30); 5 km to 1 km 23.2 (25); the same with 270 columns 105.1
(110); 5 km to 500 m 19489.7 (19500); 5 km to 250 m 25763.9 (25800); simple 500 m 14.6 (16); simple 250 m 25.3 (27.35). No NaN.
Every case is inside the limit of the repository, most of them narrowly, so the figures are a sharp check of the formulas.
Distances use the WGS84 radii of curvature. The data are float32, the run is in double precision; rounding the results to
float32, as the repository's result arrays do, changes the figures by at most 0.4 m and keeps them inside the limits.
Not executed: the loops themselves (slow; they are proved equal to the formulas), the dask layer, and the 250 m data of
`test_modis.py`.

## Trusted base

* Lean's kernel, and the axioms `propext`, `Classical.choice`, `Quot.sound`. No theorem depends on any other axiom (checked
  by `#print axioms`-style audit in vcheck); structural theorems over lists typically need only `propext` and `Quot.sound`.
* The reading of the source: the model is tied to the code by citation (file and lines beside every definition).
* Behaviour assumed of libraries, each a definition or a parameter of the model:
  - numpy indexing, slicing, stacking, `arange`, `linspace`, `meshgrid`, `where`, `vsplit`, broadcasting of equal shapes;
    `np.linspace` with an array as the number of points is a TypeError;
  - `scipy.interpolate.RectBivariateSpline(s=0)`: ValueError unless the positions strictly increase, match the data shape
    and number more than the order; value = the 1-d spline of order `ky` along columns on each tie row, then the order `kx`
    spline along rows; evaluation positions are moved into the tie range (FITPACK `bispev`). The 1-d splines are a
    parameter `S : SplLib α`. Theorems state what they need of it: `Interpolating S k` (the spline passes through its
    points), `SplNum S` (numbers in, numbers out), or "order 1 is `linSeg`" (straight segments);
  - `splrep/splev(s=0)`: the same 1-d splines, per row;
  - `RegularGridInterpolator`: ValueError for positions that are not strictly monotonic; descending positions are flipped;
    `bounds_error`, `fill_value`; the kernel is a parameter, the linear one is concrete;
  - `scipy.ndimage.map_coordinates`: a parameter in the structural theorems; bilinear with clamped coordinates
    (`order=1, mode="nearest"`) in the numerical ones;
  - `xarray.DataArray.interp`: scipy `interp1d(kind="linear", bounds_error=False)`: left-sided interval search, NaN outside;
    `np.max`/`np.min` of a DataArray skip NaN;
  - dask: `rechunk`, `map_blocks`, graph merging by key (the last task of a key counts), `tokenize` (an arbitrary function);
  - `multiprocessing.Pool`: every task runs exactly once, in any order;
  - pandas `reindex`/`interpolate` as documented; `as_matrix` exists or not (a flag);
  - C: conversion of a double to `int` is an arbitrary function; overflow of `int` products and sums is undefined
    behaviour; conversion of wider integers wraps around; Cython views are read without bounds checks.
* Rounding is modelled by `Fl r` and `Mx q` only, and only in the theorems that say so (C57 and later); the theorems over `FP K` are
  about exact arithmetic.
* Not modelled: underflow of floats, overflow of floats outside the functions of C102, C107, C112 and C113, signed zero, infinities as distinct from NaN,
  memory exhaustion, process crashes of pool workers, performance.

## What is modelled

| source | modelled | not modelled |
|--------|----------|--------------|
| `__init__.py` | all preset functions, `get_scene_splits`, `_multi` (any number of cores), version lookup | – |
| `interpolator.py` | everything, with element types (double, float32, integer) and objects over time (Model/InterpolatorObj) | keyword arguments of scipy calls (abstract value), ranges of integer types |
| `geointerpolator.py` | everything | pyresample objects beyond "gives three arrays" |
| `_modis_interpolator.pyx`, `modisinterpolator.py` | everything, with element types | warnings |
| `_simple_modis_interpolator.pyx`, `simple_modis_interpolator.py` | everything, with element types | – |
| `_modis_utils.pyx` | conversions, `rows_per_scan_for_resolution`, rechunking, `scanline_mapblocks` with every kind of argument (numpy, dask, DataArray, other), element types of lazy results | extra keyword arguments |
| `viiinterpolator.py` | everything, with dimension names and labels (Model/ViiLabels) | coordinates that do not belong to a dimension |
| `multilinear.py`, `multilinear_cython.pyx` | everything, with `multilinear_interpolation_5d`, which nothing calls (Model/Multilinear5), and objects over time (Model/MultilinearObj) | buffer acquisition errors, element types the compiled function refuses, sharing of limits given as arrays |
| `basic_interpolator.py` | everything | other array shapes than 2-d |
| `version.py` | keywords, git, parent directory, all styles; running a command is an arbitrary function | printing (`verbose`), environment variables, non-ASCII digits and spaces |
| `versioneer.py`, `setup.py`, `cython_test*.pyx`, docs, tests | – | all (packaging, generated) |

## Findings (properties false of the code, each with a proved negation)

* A pixel exactly on the 180-degree meridian (`y` = 0) is reported at longitude 0 (C01, C07). In exact arithmetic this
  includes longitude 180 itself; with rounding, longitude 180 comes back near ±180 (C65), but the pixel half way between
  longitudes a and -a is still reported at 0 (C07).
* NaN in one scan spoils the last line of the previous scan in the preset functions; hence single-core and multi-core
  results differ for such data (C16, C17).
* `generic_modis5kmto1km` raises on every input (C21).
* Chunked grid interpolation ignores the values of the fine points (C23).
* The dask token omits the class and the init options: two lazy results computed together may be exchanged (C26).
* A first row chunk smaller than a scan raises ZeroDivisionError; the simple interpolator declares 1354 f columns (C30);
  the condition that decides about rechunking is inverted (C51).
* 5 km to 500 m / 250 m puts pixels at wrong positions (C31).
* Two zero zenith angles give NaN coefficients (C34).
* 1 km widths are not checked: out-of-bounds writes (C35, C48).
* Rows beyond the last whole scan of a numpy array are uninitialised memory (C39).
* NaN ties spoil pixels at the neighbouring tie in VII interpolation (C41, C42) and in the multilinear kernels (C43).
* Multilinear: the 1-d `grid` attribute is a TypeError (C43); more than 2^31 nodes overflow, one node per axis or missing
  coordinates read out of bounds (C45); 2^31 points or no coordinates return uninitialised memory (C46).
* MODIS functions: a DataArray of a numpy array is an AttributeError; dask longitudes beside numpy latitudes silently use the
  latitudes of the first scans in every block (C53).
* With rounding, points close to the meridian 0 (780 m in float32) get the longitude 0 (C58).
* `BasicSatelliteInterpolator` cannot work with pandas 1.0 or later (C47).
* The MODIS interpolation with the zenith angle accepts float32 only: every call with float64 arrays raises ValueError,
  because the coordinate arrays are float32 (C63).
* Integer data: `Interpolator` truncates in one dimension and not in two (C72), extrapolates increasing unsigned data
  wrongly (C73); grid interpolation of integers can be off by one where the exact value is an integer (C74), and turns NaN
  (outside the grid) into some integer (C71).
* The version of an archive with several version tags is the first one as a string (C81). The prefix for the name of the
  source directory is the string `None`, so that name is never used; `get_versions`, and with it the import of the package,
  can fail with AttributeError if one git command fails after others succeeded (C82). After the tag of a post-release some
  version styles give invalid versions or raise (C83).
* `MultilinearInterpolator.grid` is kept from the first time it is read, also when the limits are assigned later (C86).
  `set_values` keeps a contiguous array of the right element type itself, so that later writes into it change the
  interpolated values (C87).
* `Interpolator.interpolate` returns a list the object keeps and writes into at the next call (C88). Repeating
  `fill_borders("y")` makes `interpolate` fail (C89). A `fill_borders` call that raises can leave some arrays replaced (C90).
* Latitudes of interpolated points are computed as if the points were on the sphere, though they lie inside: half way between
  tie points 120 degrees of longitude apart at 30 degrees north the latitude reported is 30, that of the direction 49 (C91).
  For cells of `e` ≤ 4 degrees the difference is at most `e²/80` degrees.
* `interpolate_geolocation_cartesian` takes rows at the wrong place for factors other than 2 and 4, such as 5000 m to 500 m
  (C92); C48_exact lists the calls for which it leaves its arrays; C35_exact does the same for the zenith-angle interpolator.
* The VII interpolator decides for a whole array whether degrees or cartesian coordinates are interpolated. A latitude above 60 degrees at
  one end of the array thus moves pixels at the other end: not visibly for cells of one degree (at most 1/24 of a degree), but so for
  wide ones (C94).
* In cartesian coordinates the VII interpolator matches longitudes and latitudes by dimension names and labels, in degrees by position:
  the same pair of arrays is refused or accepted, and combined row by row or label by label, according to the latitudes (C95).
* The result of the VII interpolator for longitudes between -180 and 180 depends on where the zero meridian is: turned by 180 degrees, a
  cell 90 degrees wide on the parallel of 60 degrees has its middle further north, since the turned longitudes are more than 180 degrees
  apart (C96). All other interpolators turn with the Earth, the 180-degree meridian excepted.
* Two zenith angles that differ, but by very little, put the pixels of the zenith-angle MODIS interpolator arbitrarily far outside their
  cell, as the alignment coefficient is divided by the difference; equal angles are treated apart and are harmless (C98).
* In 5 km MODIS data interpolated to 500 m or 250 m neighbouring pixels of every row are exchanged, whatever the zenith angles are: column
  12 (22) is placed before column 11 (21).  For 1 km data the order is kept if neighbouring zenith angles differ by 0.005 to 5
  degrees, for 5 km data at 1 km if they differ by 0.05 to 5 degrees (C101).
* Seen from the satellite, the expansion coefficient makes the error along the scan one of third order in the scan angle between tie points
  (C104), the alignment coefficient the one of the bow tie one of fourth order in the row spacing (C105). The equal steps of the simple
  interpolator are wrong to second order in both (C104_uniform, C108, C111).
* The multilinear interpolator divides by the length of an axis, which overflows on an axis from minus the largest number to the largest
  number: the last node gets no number (C112).

## Results per property

Statements are in properties.jsonl, exact theorem names in MANIFEST.json (all in `Verif.Props`).

* **C01** lon/lat -> xyz -> lon/lat round trip — *partial*. Modelled: Model/GeoConv. Proof: real trigonometry (arccos, arcsin); at lon = 180 the sign of y is 0. Theorems: `C01_roundtrip_partial`, `C01_negation`, `C01_antimeridian_reports_zero`. Proved for longitudes in the open interval (-180,180); false at exactly 180 in exact arithmetic (reported as 0): negation proved. With rounding, where pi is not represented, 180 comes back near 180 or -180 (C65_antimeridian_code).
* **C02** xyz -> lon/lat -> xyz round trip on the sphere — *proved*. Modelled: Model/GeoConv. Proof: real trigonometry. Theorems: `C02_roundtrip_xyz`. Exact real arithmetic.
* **C03** longitudes and latitudes stay in range — *proved*. Modelled: Model/GeoConv. Proof: ranges of arccos and arcsin, case split on the threshold. Theorems: `C03_range`. Any input including non-numbers.
* **C04** no NaN from back conversion away from the polar axis — *proved*. Modelled: Model/GeoConv. Proof: domain analysis in FP ℝ; convexity of the ball. Theorems: `C04_lon_isNum_iff`, `C04_lat_isNum`, `C04_convex_lat_isNum`. Exact real arithmetic; with rounding see C57.
* **C05** back conversion: direction and accuracy for points off the sphere — *proved*. Modelled: Model/GeoConv. Proof: monotonicity of arcsin and arccos. Theorems: `C05_lon_scale`, `C05_lat_bracket`.
* **C06** the three copies of the coordinate conversion agree — *proved*. Modelled: Model/GeoConv (three transcriptions). Proof: case split on the threshold tests. Theorems: `C06_copies_agree`. Finite inputs; np.sign and the C sign differ on NaN only.
* **C07** interpolation across the antimeridian — *partial*. Modelled: Model/GeoConv. Proof: convexity of the half space x<0. Theorems: `C07_far_side_partial`, `C07_negation`, `C07_negation_rounded`. Proved off the 180-degree meridian; false exactly on it (pixel reported at longitude 0): negation proved, also with rounding, for the whole grid interpolator: the pixel half way between longitudes a and -a.
* **C08** border extrapolation is the straight line through the two nearest tie points — *proved*. Modelled: Model/Interpolator `linearExtrapolate`. Proof: field algebra. Theorems: `C08_extrapolation_line`, `C08_refuses`, `lineThrough_unique`. Exact arithmetic in any ordered field for the value; the refusals in any arithmetic.
* **C09** fill_borders('x') reaches the fine grid edges, keeps the data and is idempotent — *proved*. Modelled: Model/Interpolator `fillColBorders`. Proof: case analysis, list lemmas. Theorems: `C09_fill_cols`, `C09_reaches_edges`. Any arithmetic; reaching the edges in exact arithmetic.
* **C10** fill_borders('y') brackets every chunk — *proved*. Modelled: Model/Interpolator `fillRowBorders`. Proof: induction on the chunks. Theorems: `C10_fill_rows`, `C10_partial_chunk_raises`. Any arithmetic; whole chunks with at least two tie rows each. A last chunk that is not whole raises IndexError.
* **C11** fill_borders rejects unknown dimensions before touching anything — *proved*. Modelled: Model/Interpolator `fillBorders`. Proof: structural. Theorems: `C11_unknown_dimension`. Any arithmetic; for every argument list with an unknown name the state is unchanged.
* **C12** the order of border filling does not matter — *proved*. Modelled: Model/Interpolator `fillBorders`. Proof: bilinear algebra in FP K. Theorems: `C12_fills_commute`, `C12_fill_borders`. Exact arithmetic including the non-number.
* **C13** interpolate() reproduces the tie points and returns the fine shape — *proved*. Modelled: Model/Interpolator `interpolate`. Proof: search of the segment, interpolation hypothesis on the spline library. Theorems: `C13_shape`, `C13_tie_points`, `interpolating_linSeg`. Shape in any arithmetic; tie points in exact arithmetic with data that are numbers, for every spline library whose splines interpolate. interpolate() leaves positions and data unchanged in the model, so repeated calls agree.
* **C14** affine fields are reproduced exactly, borders included — *proved*. Modelled: Model/Interpolator. Proof: each stage maps affine fields to affine fields. Theorems: `C14_affine`, `interpolate_affine`. Exact arithmetic; first-order spline = straight segments; fine rows in whole chunks with at least two tie rows each (otherwise the fills or the interpolation raise).
* **C15** preset MODIS functions accept any number of whole scans — *proved*. Modelled: Model/Presets, Model/Multi. Proof: explicit grids; monotonicity by induction over the scans. Theorems: `C15_modis5kmto1km`, `C15_modis1kmto500m`, `C15_modis1kmto250m`. Exact arithmetic with a non-number, any content, any spline library, any number of cores and any completion order.
* **C16** preset MODIS functions treat scans independently — *partial*. Modelled: Model/Presets. Proof: locality of the linear row spline; witness with NaN in the next scan. Theorems: `C16_modis5kmto1km_partial`, `C16_modis1kmto500m_partial`, `C16_modis1kmto250m_partial`, `C16_negation`. True when all lon/lat are numbers (partial theorems, exact arithmetic). False for contents with non-numbers; negation proved with a witness: NaN of a scan spoils the last line of the previous scan.
* **C17** multi-core result equals single-core result — *partial*. Modelled: Model/Presets, Model/Multi. Proof: C16 for every piece, C18, C19. Theorems: `C17_modis1kmto500m_partial`, `C17_modis1kmto250m_partial`, `C17_negation_500m`, `C17_negation_250m`. True when all lon/lat are numbers. False for contents with non-numbers; negation proved: NaN of a scan spoils the last line of the previous scan with one core, not across pieces.
* **C18** scene splitting is a partition into whole scans — *proved*. Modelled: Model/Multi `getSceneSplits`, `vsplit`. Proof: arithmetic and induction. Theorems: `C18_scene_splits`, `C18_number_of_pieces`. All natural numbers of lines, scan lengths and cores (at least one line, one line per scan, one core).
* **C19** parallel work is reassembled in input order whatever the schedule — *proved*. Modelled: Model/Multi (pool = list of completions). Proof: induction over the event list. Theorems: `C19_any_schedule`. Any worker function and any completion order; the pool is modelled as running every piece exactly once.
* **C20** metop20kmto1km works line by line and keeps the tie points — *proved*. Modelled: Model/Presets `metop20kmto1km`. Proof: rows as a map; interpolation hypothesis. Theorems: `C20_line_by_line`, `C20_tie_points`. Exact arithmetic; tie points for every library whose cubic splines interpolate, up to the coordinate conversion.
* **C21** generic_modis5kmto1km upsamples any 5 km arrays — *partial*. Modelled: Model/Presets `genericModis5kmto1km`. Proof: positions of the code collide: the constructor raises on every input. Theorems: `C21_negation`. False of the code: generic_modis5kmto1km raises on every input; negation proved for all inputs.
* **C22** dask chunk slices tile the fine grid — *proved*. Modelled: Model/GridInterp `enumerateChunkSlices`. Proof: induction on the number of dimensions. Theorems: `C22_sizes`, `C22_positions`, `C22_tiling`. Any number of dimensions and any chunk sizes (including empty chunks): sizes, containment, enumeration without repetition, every element in exactly one slice tuple.
* **C23** chunked interpolation equals unchunked interpolation — *partial*. Modelled: Model/GridInterp `interpolateDask`, `compute`. Proof: tiling (C22) and pointwise evaluation. Theorems: `C23_grid_chunked`, `C23_grid_partial`, `C23_spline_chunked`, `C23_spline_partial`, `C23_negation`. False of the code for fine points other than 0,1,2,...: negation proved (fine point 1/2). Proved exactly what chunking computes for any fine points (the unchunked result at 0..n-1), hence equality for fine points 0..n-1; grid interpolator for any arithmetic and method, spline interpolator in exact arithmetic.
* **C24** interpolate_to_shape and multi-array interpolation act array by array — *proved*. Modelled: Model/GridInterp multiple interpolators. Proof: structural, C23. Theorems: `C24_each`, `C24_shape`, `C24_grid_chunks`, `C24_spline_chunks`, `C24_dims`. Any number of arrays, any shape; chunked equals unchunked for interpolate_to_shape.
* **C25** geographic grid interpolation reproduces tie points and validates its arguments — *proved*. Modelled: Model/GridInterp `toXyz`, `mkGeo`, `linearKernel`. Proof: interval search at a node, C01. Theorems: `C25_argument_count`, `C25_arguments`, `C25_tie_points`, `C25_outside`, `C25_chunks`. Linear method, at least two positions per dimension, exact real arithmetic; scipy's RegularGridInterpolator is modelled from its documented behaviour.
* **C26** dask results of different interpolators can be computed together — *partial*. Modelled: Model/GridInterp `computeBoth`. Proof: graph merging by key; witness pair with equal tokens. Theorems: `C26_partial`, `C26_negation`. False of the code: the token omits the interpolator class and its init options, negation proved for every tokenize function (extrapolating vs filling interpolator of the same data). Proved when equal tie points and values imply equal options and tokenize separates the inputs.
* **C27** MODIS satellite-angle interpolation: memory safe, fully initialised, right shape — *proved*. Modelled: Model/ModisInterp, Model/ModisUtils (loops over buffers). Proof: loop invariants: the loops refine a formula per pixel. Theorems: `C27_safe_initialised`. Any arithmetic; memory accesses checked against the views; initial memory content universally quantified.
* **C28** MODIS satellite-angle interpolation: scans are independent — *proved*. Modelled: Model/ModisInterp. Proof: per-pixel formula reads one scan. Theorems: `C28_scan_independent`. Any arithmetic (bit for bit).
* **C29** MODIS interpolation: every output pixel is determined by its own tie-point cell — *proved*. Modelled: Model/ModisInterp. Proof: per-pixel formula reads one cell. Theorems: `C29_locality`, `C29_cell_in_scan`. Any arithmetic (bit for bit).
* **C30** lazy (dask) MODIS interpolation equals eager interpolation — *partial*. Modelled: Model/ModisDask, Model/ModisInterp, Model/ModisSimple. Proof: arithmetic on chunk lists, C28, C37. Theorems: `C30_lazy_eager`, `C30_lazy_eager_simple`, `C30_not_whole_scans`, `C30_not_whole_scans_simple`, `C30_negation_small_chunk`, `C30_negation_small_chunk_simple`, `C30_negation_simple_width`. Equality of lazy and eager results, and of declared and computed chunks, proved for every chunking whose first row chunk holds a whole scan (simple interpolator: 1354 columns). False of the code otherwise, negations proved: a first row chunk smaller than a scan raises ZeroDivisionError, and the simple interpolator declares 1354*f columns whatever the input width.
* **C31** MODIS: fine pixels are placed at their geometric position — *partial*. Modelled: Model/ModisInterp coordinates. Proof: index arithmetic; witnesses for 5 km to 500/250 m. Theorems: `C31_rows_1km_partial`, `C31_cols_1km_partial`, `C31_5km_to_1km_partial`, `C31_negation_rows`, `C31_negation_cols`. Proved for 1km->500m, 1km->250m, 5km->1km. False for 5km->500m and 5km->250m: negations proved.
* **C32** 5km->1km reproduces every tie point — *proved*. Modelled: Model/ModisInterp. Proof: the correction vanishes at ties; C01. Theorems: `C32_tie_points`, `C32_tie_points_satz`. Exact real arithmetic.
* **C33** MODIS interpolation weights sum to one — *proved*. Modelled: Model/ModisInterp. Proof: algebra. Theorems: `C33_constant`. Exact real arithmetic.
* **C34** expansion and alignment coefficients are numbers for real viewing geometries — *partial*. Modelled: Model/ModisInterp coefficients. Proof: trigonometric bounds; the exact criterion by squaring both sides (Props/ModisCoef). Theorems: `C34_coefficients_partial`, `C34_exact`, `C34_wide`, `C34_negation`, `C34_horizon`. False for two zero angles and for two angles of 90 degrees: negations proved. C34_exact says for every two real angles exactly when each coefficient is a number (exact arithmetic); for pixels of 1 and 5 km this is so for all angles up to 89.8 degrees in magnitude, not both zero (C34_wide).
* **C35** unsupported 5 km widths are rejected, 1 km widths are checked — *partial*. Modelled: Model/ModisInterp. Proof: dichotomy rule for loops (every iteration succeeds or is undefined behaviour), applied down to single accesses (Proofs/ModisAny, Props/ModisAny); C27 refinement for the values. Theorems: `C35_exact`, `C35_public`, `C35_refused`, `C35_width_5km_partial`, `C35_negation_wide`, `C35_negation_narrow`, `C35_negation_narrow_value`. 5 km widths other than 0, 270, 271 are refused. False for 1 km (any width accepted: out-of-bounds write or undefined result) and for empty 5 km input: negations proved. C35_exact says for all resolutions, widths and shapes of the three arrays exactly which calls stay inside the arrays.
* **C36** simple MODIS interpolation is bilinear interpolation with linear extension at the edges — *proved*. Modelled: Model/ModisSimple. Proof: map_coordinates as clamped bilinear; algebra on the border formulas. Theorems: `C36_bilinear`, `C36_affine`, `C36_tie_columns`. Exact real arithmetic; map_coordinates(order=1, mode=nearest) modelled as bilinear with clamped coordinates.
* **C37** simple MODIS interpolation: memory safe, fully initialised, scan independent — *proved*. Modelled: Model/ModisSimple. Proof: loop invariants. Theorems: `C37_safe_initialised`, `C37_scan_independent`. Any arithmetic and any behaviour of map_coordinates.
* **C38** both MODIS interpolators agree when the correction coefficients vanish — *proved*. Modelled: Model/ModisInterp, Model/ModisSimple. Proof: both formulas reduce to the same bilinear one. Theorems: `C38_agree`, `opposite_angles_zero`. Exact real arithmetic; opposite_angles_zero shows the hypothesis can be met.
* **C39** numpy inputs that are not whole scans are rejected — *partial*. Modelled: Model/ModisInterp, Model/ModisSimple. Proof: rows beyond the last whole scan are never written; the others depend on the whole scans only (refinement lemmas `interpolateCfg_rem`, `interpolateRF_rem`). Theorems: `C39_whole_scans`, `C39_whole_scans_simple`, `C39_negation`, `C39_negation_value`, `C39_negation_simple`. False of the code: such arrays are accepted, and for every conversion and every remainder the trailing rows are uninitialised memory (negations proved). Proved besides: the rows of the whole scans are right, i.e. those of the arrays cut after the last whole scan, for any arithmetic and initial memory.
* **C40** VII interpolation: shape, and errors on inconsistent input — *proved*. Modelled: Model/Vii. Proof: list lengths. Theorems: `C40_shape`, `C40_not_multiple`, `C40_inconsistent`. Any arithmetic and contents; xarray's interp is modelled from its documented behaviour (scipy interp1d, linear).
* **C41** VII interpolation: exact at tie points, bilinear inside a scan, never mixing scans — *partial*. Modelled: Model/Vii `interp1`. Proof: search on an arithmetic grid; witnesses with NaN. Theorems: `C41_bilinear_partial`, `C41_tie`, `C41_between`, `C41_scan_local_partial`, `C41_negation_cell`, `C41_negation_scan`. False of the code for contents with NaN (a NaN tie spoils the pixel at the next tie, also across scans): negations proved. Proved for arrays of numbers in exact arithmetic (bilinear of the own cell, tie values, bounds), and for any content that only the own scan's ties matter except in the first pixel row of a later scan.
* **C42** VII geolocation: cartesian path taken exactly when needed, tie points kept in both — *partial*. Modelled: Model/Vii `toCart`. Proof: maximum and minimum that skip NaN; C41, C01. Theorems: `C42_choice`, `C42_shapes`, `C42_direct`, `C42_cartesian`, `C42_tie_points`, `C42_negation`. Choice of path proved for arrays with any content (NaN skipped); values and tie points for arrays of numbers, exact real arithmetic; with NaN the tie point claim is false (negation proved).
* **C43** multilinear interpolation reproduces the grid values — *partial*. Modelled: Model/Multilinear. Proof: weights at nodes; mesh order. Theorems: `C43_grid_single`, `C43_grid_errors`, `C43_nodes_partial`, `C43_grid_partial`, `C43_negation_nan`, `C43_negation_grid_1d`. Proved for 1 to 4 dimensions, any bounds lo != hi, any orders >= 2 (fewer than 2^31 nodes), values that are numbers, any schedule. False with NaN values (a NaN spoils the neighbouring node) and for the grid attribute in one dimension (TypeError): negations proved.
* **C44** multilinear interpolation is exact for multi-affine functions, inside and outside the grid — *proved*. Modelled: Model/Multilinear. Proof: algebra in FP K for an arbitrary integer q. Theorems: `C44_exact`. Any point (also where the conversion to int is undefined: any integer will do), any grid with fewer than 2^31 nodes, exact arithmetic.
* **C45** multilinear interpolation stays inside the array and inside the data range — *partial*. Modelled: Model/Multilinear. Proof: Horner index bounds; convexity; witnesses. Theorems: `C45_in_bounds`, `C45_between`, `C45_negation_one_node`, `C45_negation_huge`, `C45_negation_dimensions`, `C45_negation_values`. In bounds for any arithmetic and content and any integer from the conversion, with fewer than 2^31 nodes and points; range in exact arithmetic. False for larger grids (int overflow, negation proved). Each further hypothesis is shown necessary: one node, missing values, extra coordinate are not rejected and read out of bounds.
* **C46** multilinear interpolation does not depend on the thread schedule — *proved*. Modelled: Model/Multilinear `prange`. Proof: permutation of independent writes. Theorems: `C46_schedule`, `C46_own_row`, `C46_too_many`, `C46_negation_points`, `C46_negation_no_dimension`. Schedule independence for all shapes and contents. Beyond the property: 2^31 points or points without coordinates return uninitialised memory.
* **C47** BasicSatelliteInterpolator keeps tie points and interpolates linearly between them — *partial*. Modelled: Model/Basic. Proof: position of the neighbouring known labels; line through two points. Theorems: `C47_linear_partial`, `C47_before_first`, `C47_accepted`, `C47_negation_pandas`, `C47_negation_nan`. False of the code with pandas 1.0 or later, where every call fails (negation proved; setup.py does not bound the version), and for NaN tie data (negation proved). Proved for older pandas, increasing labels from 0 and numbers, exact arithmetic; pandas itself is modelled by its documented behaviour. C47_accepted says for any arithmetic which calls succeed, with which shape, and how the others fail.
* **C48** the simple MODIS interpolator never leaves its arrays, whatever it accepts — *partial*. Modelled: Model/ModisSimple. Proof: out-of-bounds witnesses for every content. Theorems: `C48_exact`, `C48_unknown`, `C48_negation_columns`, `C48_negation_resolutions`. False of the code: fewer than two columns, or resolutions 1000->1000 and 5000->1000, access memory out of bounds. Negations proved. C48_exact says for all resolutions and all shapes of longitudes and latitudes exactly which calls stay inside the arrays; C37 gives the values for the public ones.
* **C49** fine positions beyond the tie points take the nearest tie row or column — *proved*. Modelled: Model/Interpolator `interpolate`. Proof: clamping to the tie range. Theorems: `C49_outside`. Every library whose splines take the given values at the given positions; exact arithmetic. FITPACK's bispev moving positions into the tie range is a modelling assumption.
* **C50** rows per scan — *proved*. Modelled: Model/ModisDask `rowsPerScan`. Proof: finite case split on the resolutions. Theorems: `C50_rows_per_scan`.
* **C51** rechunking gives whole scans and full lines, and leaves suitably chunked arrays alone — *partial*. Modelled: Model/ModisDask `rechunk`. Proof: arithmetic on chunk lists. Theorems: `C51_whole_scans`, `C51_sizes`, `C51_never_kept`, `C51_negation`. False of the code: chunks that already are whole scans and full lines are changed (negation proved); the code never returns consistent arrays unchanged (C51_never_kept). Contents, whole scans, single column chunk and the exact new sizes are proved.
* **C52** MODIS presets: values along the tie columns — *proved*. Modelled: Model/Presets. Proof: position of a fine row inside its scan; C13-like column lemma; C01 at ties. Theorems: `C52_modis5kmto1km`, `C52_modis5kmto1km_ties`, `C52_modis1kmto500m`, `C52_modis1kmto250m`. Exact arithmetic, tie points that are numbers, cores=1 (C17 carries it to more cores). Spline library: order 1 piecewise linear, order 3 gives numbers and passes through its points. Tie points themselves: off the poles and the 180-degree meridian (C01).
* **C53** MODIS functions take numpy, dask and DataArray arguments alike — *partial*. Modelled: Model/ModisWrap (`wrapper`, argument kinds). Proof: reduction to C30 by erasing the containers; the mixed case by evaluating every block. Theorems: `C53_numpy_first_error`, `C53_first_not_2d`, `C53_first_no_array`, `C53_simple_numpy_first`, `C53_lazy_not_2d`, `C53_numpy_not_2d`, `C53_missing_resolution`, `C53_no_array`, `C53_not_2d`, `C53_numpy`, `C53_dask`, `C53_containers_partial`, `C53_numpy_first`, `C53_simple_numpy`, `C53_simple_dask`, `C53_negation_numpy_dataarray`, `C53_negation_simple_dataarray`, `C53_mixed_value`, `C53_negation_mixed`. Any arithmetic. Proved for numpy arrays and for every mixture of dask arrays and DataArrays of dask arrays, and the refusals. False of the code for a DataArray of a numpy array (AttributeError) and for dask longitudes beside numpy latitudes, where every block gets the latitudes of the first scans (exact value and negation proved).
* **C54** linear grid interpolation: values between, beyond and off the tie points — *proved*. Modelled: Model/GridInterp `Rgi`, `linearKernel`. Proof: interval search on sorted positions; convex combinations. Theorems: `C54_cell_value`, `C54_between`, `C54_fill`, `C54_extrapolate`, `C54_nan`. Exact arithmetic in any ordered field; at least two positions per dimension; scipy's RegularGridInterpolator is modelled from its documented behaviour.
* **C55** grid interpolation does not depend on the direction of the tie positions — *proved*. Modelled: Model/GridInterp `mkRgi`. Proof: flips undo each other. Theorems: `C55_descending`. At least two positions per dimension, exact arithmetic for the positions, any content of the array; fine points unchunked.
* **C56** grid and spline interpolators refuse unsuitable tie points at construction — *proved*. Modelled: Model/GridInterp `mkRgi`, `mkSpline`, `toXyz`. Proof: characterisation of the monotonicity test by consecutive elements. Theorems: `C56_grid`, `C56_spline`, `C56_single_array`. Positions may contain non-numbers. The refusals are those of the modelled scipy classes.
* **C57** no NaN from back conversion, with rounding — *proved*. Modelled: Model/GeoConv over Base/Fl and Base/Mx (rounded arithmetic, one precision or mixed). Proof: monotonicity of rounding and sqrt(rnd(x*x)) = |x| after rounding; error bounds at the latitude switch. Theorems: `C57_lon_isNum_iff`, `C57_lat_isNum`, `C57_vii_lat_isNum`, `C57_cy_lat_isNum`, `C57_earth`, `C57_mixed`. Binary floating point with unbounded exponent, every operation rounded to nearest; C57_mixed: float32 arrays with double constants and functions.
* **C58** points on different sides of the meridian 0 get different longitudes, with rounding — *partial*. Modelled: Model/GeoConv over Base/Fl and Base/Mx. Proof: a square below a quarter unit of the larger one is absorbed by the rounded sum. Theorems: `C58_collapse`, `C58_negation`, `C58_mixed_negation`, `C58_sign_partial`. False of the code: points within about 2^(-p/2) radians of the meridian 0 (780 m in float32, 2.4 cm in double) all get the longitude 0, negation proved for every precision. Proved: the sign is never wrong.
* **C59** longitudes and latitudes in range, with rounding — *proved*. Modelled: Model/GeoConv over Base/Fl and Base/Mx. Proof: rounding of pi * rnd(180/pi) to exactly 180, monotonicity. Theorems: `C59_range`, `C59_mixed`. Given that the library's acos and asin return values in the (rounded) ranges of the functions; correctly rounded functions do (angleRange_correct).
* **C60** tie values reproduced bit for bit, with rounding — *partial*. Modelled: Model/GridInterp, Model/Vii, Model/Multilinear, Spec/Modis `pixel`, all over Base/Fl, MODIS also over Base/Mx. Proof: weights at ties are exactly 0 or 1, and then every rounded operation is exact; negations by following the rounding of one input. Theorems: `C60_grid`, `C60_modis_5km`, `C60_modis_5km_mixed`, `C60_vii_partial`, `C60_vii_negation`, `C60_multilinear_corners_partial`, `C60_multilinear_negation`. Proved for linear grid interpolation and for MODIS 5 km to 1 km (numeric ties and coefficients). False of the code for VII with ties of very different size (negation for every precision; proved for factors 2^q and representable differences) and for interior nodes in multilinear interpolation (negation in double precision: fifty nodes 0..49, node 1; proved for the corners).
* **C61** error bounds of the interpolators, with rounding — *proved*. Modelled: Model/GridInterp, Model/Vii, Model/Multilinear, Spec/Modis `fineXyz`, all over Base/Fl, MODIS also over Base/Mx. Proof: running relative error analysis of nested linear interpolation (Proofs/FlLin `ErrBy`, `mlin_err`); the MODIS weights as in C68. Theorems: `C61_grid`, `C61_vii`, `C61_multilinear`, `C61_modis_given_weights`, `C61_modis_mixed_given_weights`, `C61_modis_mixed`. Constants 30 (grid), 60 (VII), 6 per dimension (multilinear), 12 (MODIS with the weights as computed). C61_modis_mixed compares with the exact weights, for zenith angles of at most 70 degrees that differ by at least 0.06 degrees, or by at least 0.01 degrees within 9 degrees of nadir, or are equal and not zero.
* **C62** MODIS expansion and alignment coefficients are numbers, with rounding — *proved*. Modelled: Model/Modis `expansionAlignment` over Base/Fl and Base/Mx. Proof: error bounds for each intermediate angle (Proofs/FlCoef); a difference of two numbers rounds to 0 only if it is 0. Theorems: `C62_coefficients`, `C62_coefficients_mixed`. Binary floating point with unbounded exponent, one precision of at least 12 bits, or float32 variables with double constants and functions; library accurate to 0.1 percent (correctly rounded functions are: libAcc_correct).
* **C63** MODIS functions accept float32 and float64 and keep the type — *partial*. Modelled: Model/ModisDType (fused dispatch, buffer checks). Proof: case analysis over the element types; the float64 specialisation fails at the first buffer assignment. Theorems: `C63_float32`, `C63_negation_float64`, `C63_accepted_iff`, `C63_dimensions`, `C63_width`, `C63_simple`. True of the simple interpolation. False of the code with the zenith angle: the coordinate arrays are always float32, so every float64 call raises ValueError; negation proved for all inputs, and exactly float32 arguments are accepted.
* **C64** accuracy of the back conversion, with rounding — *proved*. Modelled: Model/GeoConv over Base/Fl; Spec/Geo `NearSphere`, `LonWithin`. Proof: calculus of relative errors (Proofs/GeoErr `Rel`), arccos is Hoelder continuous of order 1/2, distance of points to angle. Theorems: `C64_back_error`. Binary floating point with unbounded exponent, one precision; library with relative error eps (correctly rounded functions: libRel_correct). Constants not optimal; sqrt(eps) is the true order near longitude 0 and 180 (C58).
* **C65** accuracy of the round trip, with rounding — *proved*. Modelled: Model/GeoConv over Base/Fl and Base/Mx. Proof: forward errors of the cartesian coordinates (Proofs/FlRound) and the back conversion as in C64; y is not 0 because a multiple of pi is irrational. Theorems: `C65_roundtrip`, `C65_roundtrip_code`, `C65_antimeridian`, `C65_antimeridian_code`, `C65_roundtrip_mixed`, `ieee_lon_bound`, `ieee_lat_bound`. The longitude is bounded off the poles only (|lat| <= 90(1-4 eps), mixed precision 90(1-2u-4 eps)).
* **C66** MODIS 5 km to 1 km geolocation at the tie points, with rounding — *proved*. Modelled: Model/Modis over Base/Mx. Proof: C60 (the coordinates at ties are those of the tie point, bit for bit), C62 (coefficients are numbers) and C65. Theorems: `C66_modis_5km_ties`. Float32 arrays and double computation, with the code's radius and threshold; IEEE numbers by ieee_lon_bound and ieee_lat_bound.
* **C67** accuracy of geographic grid interpolation, with rounding — *proved*. Modelled: Model/GridInterp over Base/Fl (`mkGeo`, `interpolateGeo`). Proof: errors of the cartesian tie points (`fwd_err`), C61 for the interpolation, C64 for the way back. Theorems: `C67_geo_grid`. Linear method; binary floating point with unbounded exponent, one precision. The alternative (longitude 0) does occur: C07_negation_rounded.
* **C68** accuracy of the MODIS coefficients and weights, with rounding — *proved*. Modelled: Model/ModisInterp `expansionAlignment`, `atrackAscan`, `getCoords` over Base/Mx against FP ℝ. Proof: absolute errors of each intermediate angle (Proofs/MxWeights), lower bounds of the denominators from the angle functions (Proofs/ModisAngle), quotient errors (Proofs/MxCoefErr), weights (Proofs/MxTrack). Theorems: `C68_coefficients`, `C68_weights`. Float32 variables with double constants and functions; unbounded exponent. The constants are not optimal; prec_ieee gives eps = 2^-24 for IEEE numbers and correctly rounded functions. Covered are angles (in degrees) of at most 70 that differ by at least 0.06 degrees, or by at least 0.01 degrees within 9 degrees of nadir, or are equal and not zero; not covered are smaller differences.
* **C69** accuracy of the MODIS geolocation, with rounding — *proved*. Modelled: Model/ModisInterp over Base/Mx. Proof: errors of the float32 tie points (`fwdM_err`), C61 with exact weights, C64 for the way back. Theorems: `C69_modis_pixel`. Float32 arrays and double computation with the code's radius and threshold; zenith angles of at most 70 degrees that differ by at least 0.06 degrees, or by at least 0.01 degrees within 9 degrees of nadir, or are equal and not zero; eta' <= 1/100.
* **C70** accuracy of VII geolocation, with rounding — *proved*. Modelled: Model/Vii over Base/Fl (`tiePointsGeoInterpolation`). Proof: maximum and minimum of lists of numbers, monotonicity of rounding around 180; C61 for the interpolation, `fwd_err` for the ties, C64 for the way back. Theorems: `C70_choice`, `C70_direct`, `C70_cartesian`. Binary floating point with unbounded exponent, one precision; numbers only (no NaN). The sphere has the radius as the program represents it.
* **C71** element types of grid and spline interpolation — *proved*. Modelled: Model/GridDType (`Single.astype`, `singleGridT`) over Model/GridInterp. Proof: conversion commutes with the assembly of blocks; truncation is characterised by three inequalities (`TruncOf`); C54, C60 and C61 for the values before conversion. Theorems: `C71_astype`, `C71_float64`, `C71_integer`, `C71_no_nan`, `C71_integer_ties`, `C71_float32`. Integers of any size (the conversion of a number outside the range of the type is not modelled; C71_integer shows that results stay in the range of the data); linear method for the values.
* **C72** element types of Interpolator — *partial*. Modelled: Model/GridDType (`interpolateT`, `interp1dT`). Proof: conversion commutes with the loop over the rows; concrete witness with two equal rows. Theorems: `C72_1d`, `C72_2d`, `C72_negation`. False of the code: integer data is truncated in one dimension and kept as doubles in two; negation proved. C72_1d and C72_2d say exactly what happens.
* **C73** extrapolation of unsigned integer data — *partial*. Modelled: Model/GridDType (`extrap1U`, `linearExtrapolateU`, `extrapolateRowsU`). Proof: the remainder of the difference is the difference plus 2^w if negative; witness with bytes. Theorems: `C73_unsigned`, `C73_decreasing_partial`, `C73_negation`. False of the code: the difference of unsigned data wraps around, so data that increases is extrapolated wrongly; negation proved. C73_unsigned gives the exact result, C73_decreasing_partial the case in which it is right. Numpy's conversion rules (unsigned difference, double product) are part of the model.
* **C74** integer data where the interpolation is an integer — *partial*. Modelled: Model/GridDType over Base/Fl. Proof: the double nearest to 1/49 is determined by the distance to its neighbours; 49 times it rounds below 1. Theorems: `C71_integer`, `C71_integer_ties`, `C74_negation`. False of the code in double precision (negation proved for every rounding to nearest); true in exact arithmetic (C71_integer) and at the tie positions (C71_integer_ties).
* **C75** accuracy of the simple MODIS geolocation, with rounding — *proved*. Modelled: Model/ModisSimple over Base/Mx, Spec/SimpleErr. Proof: the coordinates are exact float32 numbers; error analysis of the two extrapolations (`right_err`, `line_err`); `fwdM_err` for the ties, C64 for the way back (`back_mx`). Theorems: `C75_simple_pixel`, `C75_simple_coordinate`, `mcRounded_ok`, `prec_double`. Float32 arrays and double computation (float64 arrays: both formats double, prec_double) with the code's radius and threshold; map_coordinates is any function accurate to rho on each cell (mcRounded_ok: there is one); eta' <= 1/100.
* **C76** preset functions accept whole swaths, with rounding — *proved*. Modelled: Model/Presets, Model/Interpolator over Base/Fl. Proof: positions are multiples of 1/m, so rounding keeps their order (`rnd_lt_grid`); the chunk borders are exact integers; then the structural theorem C10 and the shape of the filled grid (Proofs/FlPresets). Theorems: `C76_modis5kmto1km`, `C76_modis1kmto500m`, `C76_modis1kmto250m`, `C76_metop20kmto1km`. Binary floating point with unbounded exponent, one precision.
* **C77** MODIS presets along the tie columns: accuracy with rounding — *proved*. Modelled: Model/Presets, Model/Interpolator over Base/Fl. Proof: error of one extrapolation at rounded positions (`flEx_line`), of a segment between two filled rows (`segment_near`), together `column_fl`; 19 eps R per tie coordinate (`fwd_err`); `near_add` and C64 for the way back (Proofs/FlPresetsAcc, Proofs/FlColumn); several cores: what holds of every scan of the pieces holds of every scan of the result (`multi_scans`, Props/FlCores). Theorems: `C77_modis5kmto1km`, `C77_modis5kmto1km_ties`, `C77_modis1kmto500m`, `C77_modis1kmto250m`, `C77_modis1kmto500m_cores`, `C77_modis1kmto250m_cores`, `splAcc_splRnd`. Binary floating point with unbounded exponent, one precision; the spline library is any function accurate to rho on the positions of the preset (splAcc_splRnd: there is one); t <= 1/100; 1 km presets on any number of cores and any schedule.
* **C78** declared element type of lazy MODIS results — *proved*. Modelled: Model/ModisLazyDType over Model/ModisDType and Model/ModisDask. Proof: forgetting the types turns the typed lazy run into the untyped one (`lazyTyped_untyped`), then C30; a property of every task result holds of every block (`lazyTyped_all`). Theorems: `C78_declared`, `C78_declared_simple`, `C78_float32`, `C78_negation_float64`, `C78_simple`. Two-dimensional dask arrays; C78_negation_float64 is the lazy side of the negation of C63.
* **C79** version string of a checkout — *proved*. Modelled: Model/Version (`renderPep440`), Spec/Version. Proof: closed form of the string (`render_tag`); decimal numbers have their value and no dots; the order compares keys segment by segment, the first differing one is the distance. Theorems: `Version.C79_clean`, `Version.C79_valid`, `Version.C79_untagged`, `Version.C79_order`, `Version.C79_identifies`. PEP 440 in canonical form. C79_identifies for tags without a local part; C79_order for any tag.
* **C80** output of git describe is understood — *proved*. Modelled: Model/Version (`parseDescribe`, `piecesFromVcs`, `getVersions`). Proof: the last two hyphens are those of the form (`matchDescribe_some`), conversely `matchDescribe_sound`; lines lose their ends in `strip` (Props/VersionGit). Theorems: `Version.C80_tagged`, `Version.C80_untagged`, `Version.C80_sound`, `Version.C80_roundtrip`, `Version.C80_checkout`, `Version.C80_checkout_untagged`, `Version.C80_checkout_commits`, `Version.C80_branch_named`, `Version.C80_branch_detached`, `Version.C80_branch_error`. Running git is a function from directory and arguments to output and return code; ASCII digits and spaces.
* **C81** version of an archive is the release — *partial*. Modelled: Model/Version (`versionsFromKeywords`). Proof: the order of strings is a total order; the first hit in a sorted list is the least (`find_sorted`); splitting undoes joining (`split_joined`) (Props/VersionArchive). Theorems: `Version.C81_release`, `Version.C81_candidates`, `Version.C81_picked`, `Version.C81_final`, `Version.C81_none`, `Version.C81_negation_latest`. True for one version tag (C81_release). False of the code for several: the first in the order of strings is taken, so 1.9 instead of 1.9.1 at the same commit; negation proved. C81_picked says exactly which one; a release is preferred to its release candidates (C81_final).
* **C82** version lookup never fails — *partial*. Modelled: Model/Version (`getVersions`, `versionsFromParentdir`). Proof: case analysis of every step that can fail; witnesses for the negations (Props/VersionArchive). Theorems: `Version.C82_total_partial`, `Version.C82_no_git`, `Version.C82_no_file`, `Version.C82_negation_parentdir`, `Version.C82_negation_raises`, `Version.C82_parentdir`. False of the code: the configured directory prefix is the string 'None', so the version in the directory name is never found, and if git show fails after git describe succeeded an AttributeError is raised (on import of the package); negations proved. C82_total_partial: it returns if git show and git rev-list answer; C82_no_git: and if git does not run at all.
* **C83** other version styles give valid versions — *partial*. Modelled: Model/Version (`render` and all styles), Spec/Version. Proof: closed forms; a public version has at most one letter p (`public_count_p`) (Props/VersionStyles). Theorems: `Version.C83_release`, `Version.C83_unknown`, `Version.C83_error`, `Version.C83_valid`, `Version.C83_pre`, `Version.C83_negation_post`, `Version.C83_negation_pre`, `Version.C83_pre_empty`, `Version.C83_untagged`, `Version.C83_dirty`, `Version.C83_negation_dirty_pre`. False of the code in pep440-pre, which never shows changes of the working tree, and for tags of post-releases (pep440-post and pep440-old give TAG.postM.postN, pep440-pre raises for TAG.postM.devK); negations proved. True for tags without post- and development part (C83_valid, C83_pre). The configured style is pep440 (C79).
* **C84** keywords read from the file are those of the module — *proved*. Modelled: Model/Version (`getKeywords`, `searchValue`). Proof: the fold over the lines per keyword; later lines that do not define it leave it (`fold_other`) (Props/VersionFile). Theorems: `Version.C84_keywords`, `Version.C84_missing`, `Version.C84_repository`. Lines end with a line feed; ASCII spaces; reading errors after opening the file are left out.
* **C85** the five-dimensional kernel is right, and cannot be reached — *proved*. Modelled: Model/Multilinear5 (`point5d`, `interp5d`). Proof: the 32 reads are those of the nested interpolation (`point5d_ok`), then the lemma of C44 (`mlin_exact`); the refusal by evaluation (Props/Multilinear5). Theorems: `C85_exact`, `C85_refused`. Exact arithmetic, any conversion to int. The refusal holds for any arithmetic, once values are set.
* **C86** the grid of an interpolator is that of its limits — *partial*. Modelled: Model/MultilinearObj (`step`, `run`). Proof: invariant over the history (`run_induct`): the cached grid is that of the limits; witness for the negation (Props/MultilinearObj). Theorems: `C86_grid`, `C86_kept`, `C86_negation`. Holds where smin and smax are not assigned (C86_grid). False of the code otherwise: the grid is kept from the first time it is read (C86_kept), negation proved. Limits are lists, already converted to the element type.
* **C87** an interpolator keeps the values it was given — *partial*. Modelled: Model/MultilinearObj (`ascontiguous`, heap of the caller's arrays). Proof: invariant over the history; evaluation of two operations for the shared case (Props/MultilinearObj). Theorems: `C87_copied`, `C87_shared`, `C87_points`, `C87_negation`. Holds for arrays that are converted or not contiguous (C87_copied). False of the code for contiguous arrays of the element type of the object, which are not copied (C87_shared); negation proved.
* **C88** results of interpolate stay as returned — *partial*. Modelled: Model/InterpolatorObj (`istep`, `irun`, `storeAll`). Proof: induction over the history and over the list of arrays; witness for the negation (Props/InterpolatorObj). Theorems: `C88_value`, `C88_kept`, `C88_again`, `C88_shared`, `C88_failure`, `C88_negation`. False of the code: the list is an attribute of the object and later calls of interpolate replace its items (C88_shared); negation proved. It stays as it is between calls (C88_kept) and where a call computes the same again (C88_again); a failing call leaves the first arrays replaced (C88_failure).
* **C89** fill_borders can be repeated — *partial*. Modelled: Model/Interpolator (`fillBorders`, `interpolate`). Proof: row positions after each fill from the characterisation of `fillRows` (C10), then failure of the increasing-positions test (Props/InterpolatorObj). Theorems: `C89_negation`. False of the code: the second call adds the last fine row again, so the tie rows no longer increase and interpolate raises ValueError; negation proved for every object without chunks in the stated family.
* **C90** a failing fill_borders leaves the object as it was — *partial*. Modelled: Model/InterpolatorObj (`fillColsL`, `fillRowsL`, `fillBordersL`). Proof: whether an array can be extended depends on its shape only, so the first array fails or none; induction over the dimensions (Proofs/InterpolatorObj, Props/InterpolatorObj). Theorems: `C90_outcome`, `C90_rows`, `C90_cols`, `C90_several`, `C90_negation`. Holds for one dimension: rows always (C90_rows), columns where the tie arrays have one shape (C90_cols), as those of GeoInterpolator do. False of the code otherwise: arrays of different widths, or a later dimension failing after an earlier one (C90_several says what is left); negation proved.
* **C91** geographic interpolation follows the sphere — *partial*. Modelled: Model/GeoConv, Model/Presets (`toLonLat`), Model/Grid (`mkGeo`, `interpolateGeo`). Proof: the norm of a weighted mean from the variance identity, then the sine expands by at least the cosine on the branch taken (Props/GeoSphere). Theorems: `C91_lon`, `C91_lat`, `C91_grid`, `C91_degrees`, `C91_direction_false`. The longitude is that of the direction (C91_lon; the 180-degree meridian and the polar axis excepted, see C01). The latitude is not, as it is computed as if the point were on the sphere: negation proved (30 instead of 49 degrees half way between tie points 120 degrees of longitude apart). Proved instead in exact arithmetic: it is within 20 d degrees where tie points are at most sqrt(d) radii apart, within e*e/80 degrees for cells of e degrees.
* **C92** fine rows of the simple MODIS interpolator are centred — *partial*. Modelled: Model/ModisSimple (`coordY`, `interpolate`). Proof: field arithmetic for the coordinate; the run by C48_exact (Props/ModisSimpleAny). Theorems: `C92_offset`, `C92_alignment`, `C92_negation`. True for the factors 2 and 4 of the public functions (C92_alignment, exact arithmetic). False of the code for every other factor: rows are off by (f-2)(f-4)/(16f) coarse rows (C92_offset); negation proved for 5000 m to 500 m, which is computed without an error.
* **C93** interpolation between neighbouring tie points follows the great circle at uniform speed — *partial*. Modelled: Model/GeoConv, Model/Presets (`toLonLat`), Model/Grid (`mkGeo`, `interpolateGeo`). Proof: the direction of a point of a chord is the point of the arc at the fraction given by an arc tangent, exactly; its difference from the fraction along the chord is bounded by monotonicity in the angle (Spec/Arc, Proofs/Arc, Props/GeoArc). Theorems: `C93_chord`, `C93_grid`, `C93_uniform_false`. False of the code as an equation, as points are interpolated along chords: negation proved (a quarter of the way between longitudes 0 and 90 of the equator is not reported at 22.5 degrees). Proved instead in exact arithmetic, for neighbours at most sqrt(d) radii apart, d <= 1/100: the result has the longitude of a point of the great circle arc, and its latitude to 20 d degrees, and the fraction of the way along the arc differs by at most d/50 from that of the positions. (Points on the polar axis excepted; for the longitude also the 180-degree meridian.)
* **C94** a VII pixel depends only on the four tie points around it — *partial*. Modelled: Model/Vii (`tiePointsGeoInterpolation`), Model/GeoConv, Model/Grid (`mkGeo`, `interpolateGeo`). Proof: weighted means of the cosine are within a quarter of the squared range of that of the mean (convexity of x^2/2 + c cos x), applied in coordinates turned to the mean longitude; then the two conversions of C91 (Proofs/GeoModes, Props/GeoModes). Theorems: `C94_means`, `C94_cell`, `C94_vii`, `C94_local`, `C94_grid`, `C94_simple`, `C94_negation`. False of the code, as one latitude above 60 degrees anywhere changes the way the whole array is interpolated: negation proved for a cell 90 degrees wide. Proved instead in exact arithmetic, with the default z threshold: for cells of at most e <= 4 degrees, latitudes up to 60 and longitudes up to 179, both ways (and GeoGridInterpolator, and the simple MODIS interpolator inside a cell) are within e*e/24 degrees of the bilinear interpolation of longitudes and latitudes, and two arrays with a common cell differ by no more.
* **C95** longitudes and latitudes are matched the same way in both ways of interpolating — *partial*. Modelled: Model/ViiLabels (`joinDim`, `align`, `geoLabelled`). Proof: positions of labels in lists without repetition; refusals by the sizes after the join and C40; numbers by C42 (Props/ViiLabels). Theorems: `C95_position`, `C95_degrees`, `C95_labels`, `C95_exchanged`, `C95_missing`, `C95_names`, `C95_tie_points`, `C95_negation_labels`, `C95_negation_names`. False of the code, as xarray matches by names and labels in the product of _lonlat2xyz, while the interpolation in degrees matches by position: negations proved for labels in another order and for names in another order. Proved: the two ways agree for equal names with labels that agree or are missing on one side, and exactly what happens otherwise. xarray's alignment (inner join in the order of the first operand, broadcasting by name) is modelled from its documentation.
* **C96** turning or mirroring the Earth turns or mirrors the interpolated positions — *partial*. Modelled: Model/GeoConv, Model/Grid (`mkGeo`, `interpolateGeo`), Model/ModisInterp, Model/ModisSimple, Model/Vii (`tiePointsGeoInterpolation`), Model/Presets. Proof: ties move as points of the sphere and weighted sums of points move with the points, so the point converted back is moved; then the conversion itself (Spec/Motion, Props/GeoMotion); for the presets each output of `fillborders` and the spline is shown to be one linear map of the points of a scan, the same for the three coordinates (Props/PresetsMotion). Theorems: `C96_convert`, `C96_grid`, `C96_simple`, `C96_modis`, `C96_vii`, `C96_modis5kmto1km`, `C96_modis1kmto500m`, `C96_modis1kmto250m`, `C96_metop20kmto1km`, `splSum_linSeg`, `C96_negation_meridian`, `C96_negation_vii`. Exact arithmetic. The mirror images hold without exception. Turns hold up to the 180-degree meridian, which is reported as longitude 0 (C01; negation C96_negation_meridian), and for VII if the turned longitudes are not brought back into an interval of 360 degrees, or both arrays are interpolated in cartesian coordinates; otherwise false of the code, as the way of interpolating changes with the span of the longitudes: negation proved. For the presets the spline library is any one whose splines are weighted sums of the data with weights that do not depend on the data (splSum_linSeg: piecewise linear ones are).
* **C97** negated longitudes give exactly the negated longitudes, with rounding too — *proved*. Modelled: Model/GeoConv, Model/ModisInterp, Model/ModisSimple, Model/Vii, Model/Interpolator, Model/Presets, Model/Multi, Model/GridInterp. Proof: every operation commutes with negating the y coordinate, by the laws of `SymArith` only; errors and task graphs are followed case by case (Spec/Mirror, Proofs/Mirror, Proofs/MirrorInterp, Props/Mirror, Props/MirrorPresets). Theorems: `C97_modis`, `C97_simple`, `C97_vii`, `C97_metop`, `C97_modis5km`, `C97_500m`, `C97_250m`, `C97_geo`, `C97_geo_shape`, `C97_geo_object`, `oddMake_grid`, `oddMake_spline`, `oddKernel_linear`, `oddLib_mcLinear`. For every arithmetic that treats x and -x alike (Spec/Mirror `SymArith`; exact, rounded and mixed-precision instances proved in Proofs/Mirror; the sign of zero is not modelled). The interpolation library is assumed to negate its result with its data: proved for the piecewise linear spline, the linear grid kernel and linear map_coordinates. North and south are not exactly symmetric with rounding, as low latitudes are computed as 90 - acos(z/R).
* **C98** a pixel of the zenith-angle MODIS interpolator stays near the tie points of its cell — *partial*. Modelled: Model/ModisInterp (`expansionAlignment`, `atrackAscan`). Proof: closed form of the coefficients (C68), lower bounds for the sagitta and for the sine, Lipschitz bounds for the angle at the centre; the run by `run_pixel` (Props/ModisGap). Theorems: `C98_expansion`, `C98_alignment`, `C98_alignment_sharp`, `C98_weights`, `C98_diverges`, `C98_negation_weights`, `C98_negation`. False of the code: the alignment coefficient is divided by the difference of the angles, so for two different but nearly equal angles it exceeds any bound (C98_diverges gives a lower bound 3.4e-7 w^2 / |a-b|), and a pixel between tie points at longitudes 0 and 1 is reported east of 90 degrees; negation proved for every conversion. Proved instead: the scan weight is within 2|s(1-s)| + 0.02/g of the position s of the pixel in its cell, g the difference of the angles in degrees. Exact arithmetic; angles in files have steps of 0.01 degrees.
* **C99** the interpolators of 1 km MODIS data agree with each other — *proved*. Modelled: Model/Presets, Model/ModisSimple, Model/ModisInterp. Proof: presets: value at tie columns (C52) against the bilinear formula (C36), cell by cell; resolutions: linearity in the row inside a cell; zenith angles: difference of the scan weights (C98) times the difference of the tie points, the simple result being the zenith-angle one with vanishing coefficients (C38) (Props/ModisAgree). Theorems: `C99_presets`, `C99_half`, `C99_simple`, `C99_zenith`, `C99_zenith_ties`. Exact arithmetic. Presets on one core (C52: more cores give the same arrays), for any library spline that is numeric, interpolating and piecewise linear for degree 1; no statement between the columns, where the cubic spline of the presets differs from the line. The bound with zenith angles is for the interpolated cartesian components, before the conversion to degrees; it is not sharp.
* **C100** errors of the tie points are amplified by a known factor — *proved*. Modelled: Model/ModisSimple, Model/Vii, Model/GridInterp, Model/Multilinear. Proof: the closed forms (C36, C41, C54, mlin) are linear in the values; sum of the absolute weights in each of the three positions of a point relative to its cell; sign patterns for sharpness (Props/Sensitivity). Theorems: `C100_bilinear`, `C100_bilinear_sharp`, `C100_simple`, `C100_vii`, `C100_grid`, `C100_multilinear`. Exact arithmetic. C100_simple speaks of the cartesian points before the conversion to degrees; C100_vii of the bilinear value that C41 shows to be the value of a pixel. No statement on points beyond the positions of grids and multilinear interpolators, nor on cubic splines.
* **C101** the pixels of a row of the zenith-angle MODIS interpolator are in order along the scan — *partial*. Modelled: Model/ModisInterp (`expansionAlignment`, `atrackAscan`, `getCoords`). Proof: identity for the sine of the mean zenith angle gives an expansion coefficient proportional to the difference of the angles; the alignment coefficient by C98 with the width of the scan; then the difference of two quadratic functions (Props/ModisOrder). Theorems: `C101_expansion`, `C101_cell`, `C101_row`, `C101_row_5km`, `C101_negation`, `C101_negation_5km`. Exact arithmetic. Proved for 1 km data where neighbouring zenith angles differ by at least 0.005 and at most 5 degrees (C101_row), for 5 km data at 1 km where they differ by 0.05 to 5 degrees (C101_row_5km), and within a cell for all conversions and angles at most 5 degrees apart that are not both zero (C101_cell: the scan weight increases with the position of the column). False of the code otherwise: for nearly equal angles (C101_negation), and for 5 km data at 500 m and 250 m for all angles, where columns 11, 12 (21, 22) are exchanged (C101_negation_5km; the positions of C31). No statement for angles more than 5 degrees apart.
* **C102** no overflow in the geolocation arithmetic — *proved*. Modelled: Base/Ov over Base/Fl, Base/Mx; Model/GeoConv, Model/ModisInterp. Proof: a calculus of bounds (`Same x a B`: the two computations agree and the number is at most B), operation by operation; coefficients: two different floats differ by at least one unit in the last place, so that a quotient by their difference is at most 2^p times the size, also after conversion to radians and `asin` (Base/Ov, Proofs/OvInst, Proofs/OvGeo, Proofs/OvCoef, Props/Overflow, Props/OverflowSimple). Theorems: `C102_conversions`, `C102_coefficients`, `C102_modis`, `C102_simple`, `C102_limit`. Rounded arithmetic with an infinity (merged with NaN) for every result beyond the largest number of its format (Base/Ov), against the same arithmetic with unbounded exponent; underflow is not modelled. C102_modis: float32 and float64 mixed as in the Cython code, each at least as wide as 1e37 and 1e75; the bound on the coefficients (C102_coefficients) holds for all angles. C102_simple: for any map_coordinates whose results are at most twice the largest number of its array. C102_conversions for one format that stores 1e37.
* **C103** interpolated longitudes keep their order along a row, and latitudes down a column — *proved*. Modelled: Model/GeoConv, Model/GridInterp, Model/Vii, Model/ModisSimple. Proof: seen from the polar axis along the middle meridian of the cell the longitude of a weighted mean is the arctangent of a weighted mean of tangents, which grows with the weight of the right side; the angle reported is that one by C91 and uniqueness; cells are joined at the tie columns (Proofs/LonOrder, Props/LonOrder). Theorems: `C103_cell`, `C103_cell_lat`, `C103_vii`, `C103_vii_lat`, `C103_grid`, `C103_simple`, `C103_wide_false`. Exact arithmetic. C103_vii holds for both ways of the code (degrees and cartesian). Latitudes only where the code computes them from z (sine of the latitude below the threshold): beyond, rows and columns bulge towards the pole as great circles do. The case of longitudes that decrease is the mirror image (C96, C97). No statement outside the tie points.
* **C104** the zenith-angle expansion reproduces the viewing geometry of the instrument — *proved*. Modelled: Model/ModisInterp (`expansionAlignment`, `atrackAscan`, `fineComponent`); Spec/Scan. Proof: the specification `Seen` describes the line of sight from the satellite to the ground in the plane, without the formulas of the code; the law of sines is derived from it. The weight of the code is the parabola through three values of the angle at the centre; its error by Rolle's theorem applied three times and a bound of the third derivative, on an interval that includes the points beyond the tie points; uniform weights by the second derivative; the chord between tie points by the arc fraction of C93 (Spec/Scan, Proofs/QuadErr, Proofs/ScanGeom, Props/ScanGeom). Theorems: `C104_coefficient`, `C104_half`, `C104_cell`, `C104_nadir`, `C104_uniform`, `C104_pixels`, `C104_run`, `C104_beyond`. Exact arithmetic, spherical Earth with the radius and height of the code. The alignment term, which moves the pixels between the rows of tie points, is outside the statement (C98 bounds it); in C104_run it vanishes. C104_run assumes that the tie points lie on the circle of a scan in agreement with the zenith angles of the first row of the scan, which the code uses for both rows. C104_beyond is about the angle at the centre of pixels outside the two tie points; C109 has their positions.
* **C105** the alignment term reproduces the curvature of the rows between two rows of tie points — *proved*. Modelled: Model/ModisInterp (`expansionAlignment`, `atrackAscan`); Spec/Scan. Proof: the specification `Hit` is the first point of the sphere on a line in space, `outBy` a horizontal distance, neither with the formulas of the code; the quadratic equation of the line gives the extra way exactly, the first root because the earlier part of the line is outside the sphere; the fourth order by writing the difference of the square roots as fractions (Spec/Scan, Proofs/RayHit, Props/BowTie). Theorems: `C105_coefficient`, `C105_outward`, `C105_rows`, `C105_pixels`. Exact arithmetic. The lines of sight of the rows are taken parallel to the plane of the scan in the middle between two rows of tie points, half the row spacing of the ground at their distance beside it, as in the derivation of the algorithm.
* **C106** positions computed from float32 data are near the points that the instrument sees — *proved*. Modelled: as C69 and C104. Proof: C69 asks for a point of the sphere near the exact combination of tie points: by C104 this combination is a multiple of a point of the scan near the one seen, and the multiple is near one because the chord is short (Props/ScanRounded). Theorems: `C106_run`. The satellite height and the sphere are those of the code; rounding and library accuracy as in C69 (no overflow, see C102; no underflow). The zenith angles are those that the code uses, of the first row of tie points of the scan. Only longitude 0 near the 180-degree meridian is excepted, as in C07.
* **C107** no overflow in the VII and grid interpolators — *proved*. Modelled: Base/Ov over Base/Fl; Model/Vii, Model/GridInterp, Model/GeoConv. Proof: the calculus of C102 carried through searchsorted, the interpolation weights and the two passes of the VII interpolation, and through the comparisons, weights and corners of the grid kernel; bounds of the weights do not depend on the spacing of positions (Proofs/OvVii, Props/OverflowVii, Props/OverflowGrid). Theorems: `C107_interpolation`, `C107_geo`, `C107_limit`, `C107_grid`, `C107_geogrid`. Rounded arithmetic with an infinity (merged with NaN) beyond the largest number of the format, at least 1e37, as in C102; one format for all data and positions; library functions with a relative error of at most 1/100. Grids: the linear method (`linearKernel`), computed in one piece, fine points inside the grid; longitudes and latitudes of at most 1e10.
* **C108** the simple MODIS interpolator in the viewing geometry of the instrument — *proved*. Modelled: Model/ModisSimple; Spec/Scan. Proof: error of the line through two values of a function by Rolle's theorem and a bound of the second derivative of the angle at the centre; the chords of both rows have the same fraction and the same distance from the centre, so that the bilinear combination is a multiple of a point between the circles; directions as in C91 (Props/ScanSimple). Theorems: `C108_steps`, `C108_cell`, `C108_run`. Exact arithmetic, spherical Earth with the radius and height of the zenith-angle interpolator; the rows of the tie points are on circles around the centre of the Earth (the small circles that detectors beside the middle of the scan really see are C105). That second order is the right order is C104_uniform. Pixels beyond the first and last rows of a scan and beyond the last tie column are outside the statement (C111 has them, with tie points beside the plane of the scan). The latitude is within 20 degrees times the squared size of the cell of that of the direction (C91).
* **C109** where the zenith-angle MODIS interpolator places the pixels of a cell, in space — *proved*. Modelled: Model/ModisInterp; Spec/Scan. Proof: the point hit beside the plane of the scan is computed in the plane of its line of sight, where it is at an angle from the nadir that exceeds that of C104 by an arcsine of the extra way of C105; this shift is Lipschitz in the zenith angle with a constant of the order of the squared half spacing, so that the alignment term cancels its main part for all pixels, also in the rows and columns that are extrapolated (the extra way grows with the square of the distance up to fourth order); points on a line through two points of a circle, also beyond them (the scan weight may leave [0, 1]), by the arctangent (Proofs/RowHit, Props/BowTieCell). Theorems: `C109_cell`, `C109_run`. Exact arithmetic. The lines of sight of the rows are taken parallel to the plane of the scan in the middle between two rows of tie points (as in C105), and the zenith angles that the code uses are those of the lines in that plane. Every pixel is covered; those before the first and behind the last column of tie points if seen at a zenith angle of at most 70 degrees. The positions of the pixels between the tie points are those of the code, which are wrong for 5 km to 500 m and 250 m (C31). The statement names the conversion of P to longitude and latitude itself; C110 compares longitude and latitude with those of the point seen.
* **C110** positions computed from float32 data are near the points that the instrument sees, for every pixel of every conversion — *proved*. Modelled: Model/ModisInterp; Base/Mx; Spec/Scan, Spec/Geo. Proof: C109 with bounds on the factor towards the centre, on the sides of the cell and on the weights turns into a distance from the point seen; this is the hypothesis of C69 on the exact interpolation, whose bound is monotone in the size of the cell and of the weights (Props/BowTieRounded). Theorems: `C110_run`. The geometry is that of C109, the arithmetic that of C69 (no overflow, see C102; no underflow). The size of the cell and the sizes of the weights, hypotheses in C69, are derived from the geometry. Pixels before the first and behind the last column of tie points are covered if seen at a zenith angle of at most 70 degrees. The positions of the pixels between the tie points are those of the code, which are wrong for 5 km to 500 m and 250 m (C31). Only longitude 0 near the 180-degree meridian is excepted, as in C07.
* **C111** positions computed from float32 data by the simple MODIS interpolator are near the points that the instrument sees — *proved*. Modelled: Model/ModisSimple; Base/Mx; Spec/Scan, Spec/SimpleErr. Proof: the simple combination of the four tie points is the one of C109 with another weight along the scan; the weights differ by the two coefficients, the first of which is bounded by the error of equal steps half way (C104, C108), the second by the extra way of C105; this moves the point by at most that part of the side of the cell, and C75 adds the rounding (Props/SimpleSeen). Theorems: `C111_run`. The geometry is that of C109 for rows one kilometre apart, the arithmetic that of C75 (no underflow; map_coordinates is a parameter with a stated accuracy). The size of the cell, a hypothesis in C75, is derived from the geometry. Only longitude 0 near the 180-degree meridian is excepted, as in C07.
* **C112** no overflow in the multilinear interpolator — *proved*. Modelled: Base/Ov over Base/Fl; Model/Multilinear. Proof: the calculus of C102: inside the grid the normalised coordinates are at most one (C61) whatever the length of the axis, so that each dimension multiplies the bound of the values by at most six; by induction on the dimensions, and for the nodes on the axes (Props/OverflowMulti). Theorems: `C112_interpolate`, `C112_grid`, `C112_limit`. Rounded arithmetic with an infinity (merged with NaN) beyond the largest number of the format, at least 1e37, as in C102 and C107; no underflow. One to four dimensions, points inside the grid; outside it the weights, and so the results, can be of any size. C112_limit is stated at the last node only: at points for which the distance from the first node is still a number the code divides by an infinite length, which an arithmetic that does not tell infinity from NaN cannot show.
* **C113** no overflow in the extrapolation of borders — *proved*. Modelled: Base/Ov over Base/Fl; Model/Interpolator. Proof: the run of fill_borders in two arithmetics on the same type that agree on moderate numbers (Proofs/OvFill), with bounds from the calculus of C102: different integer positions are at least one apart, so that filling one dimension multiplies the bound of the data by at most 10^11 (Props/OverflowFill). Theorems: `C113_fill`, `C113_limit`. Rounded arithmetic with an infinity (merged with NaN) beyond the largest number of the format, at least 1e37, as in C102; no underflow. Division by the difference of equal positions gives no number with and without overflow. Data arrays of integer types are the subject of other claims.
