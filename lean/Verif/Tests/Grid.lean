import Verif.Tests.Util

/-!
# `TestSingleGridInterpolator`, `TestGeoGridInterpolator` and `TestGeoSplineInterpolator` on the model
-/

namespace Verif.Tests
open Verif Verif.Interpolator Verif.Grid

/-- `expected` (test_interpolator.py) -/
def cubicExpected : List (List Float) :=
  [[0.0, 0.591666667, 0.909722222, 1.0, 0.908333333, 0.680555556, 0.3625, 1.11022302e-16, (-0.361111111), (-0.675),
  (-0.895833333), (-0.977777778), (-0.875), (-0.541666667), 0.0680555556, 1.0], [1.2918883, 1.36660572, 1.37255612,
  1.32180851, 1.2264319, 1.09849528, 0.950067677, 0.793218085, 0.640015514, 0.50252897, 0.39282746, 0.32297999,
  0.305055566, 0.351123195, 0.473251884, 0.683510638], [1.90990691, 1.81115953, 1.72929138, 1.6610309, 1.60310651,
  1.55224664, 1.5051797, 1.45863412, 1.40933833, 1.35402074, 1.28940979, 1.21223389, 1.11922148, 1.00710096,
  0.872600776, 0.712449341], [2.0, 1.99166667, 1.99305556, 2.0, 2.00833333, 2.01388889, 2.0125, 2.0, 1.97222222,
  1.925, 1.85416667, 1.75555556, 1.625, 1.45833333, 1.25138889, 1.0], [1.7081117, 1.97446571, 2.17697619, 2.32104863,
  2.41208851, 2.45550132, 2.45669253, 2.42106763, 2.3540321, 2.26099144, 2.14735111, 2.01851661, 1.87989341,
  1.73688701, 1.59490288, 1.4593465], [1.18018617, 1.82589523, 2.29418084, 2.60650963, 2.7843482, 2.84916319,
  2.82242122, 2.72558891, 2.58013287, 2.40751974, 2.22921614, 2.06668868, 1.94140399, 1.87482869, 1.8884294,
  2.00367275], [0.562167553, 1.6122938, 2.35779706, 2.83871581, 3.09508855, 3.16695379, 3.09435002, 2.91731573,
  2.67588943, 2.41010961, 2.16001476, 1.96564339, 1.867034, 1.90422507, 2.11725511, 2.54616261], [(-5.55111512e-16),
  1.4, 2.38095238, 3.0, 3.31428571, 3.38095238, 3.25714286, 3.0, 2.66666667, 2.31428571, 2.0, 1.78095238, 1.71428571,
  1.85714286, 2.26666667, 3.0], [(-0.387768035), 1.24340379, 2.37526033, 3.07734929, 3.41921836, 3.47041522,
  3.30048758, 2.97898313, 2.57544955, 2.15943455, 1.80048581, 1.56815104, 1.53197791, 1.76151412, 2.32630738,
  3.29590536], [(-0.592170878), 1.14910071, 2.34627828, 3.07636778, 3.4163752, 3.44330649, 3.23416762, 2.86596457,
  2.4157033, 1.96038977, 1.57702995, 1.34262982, 1.33419533, 1.62873246, 2.30324718, 3.43474544], [(-0.631638547),
  1.11173771, 2.29804954, 3.00731383, 3.31954746, 3.31476733, 3.07299031, 2.67423329, 2.19851317, 1.72584681,
  1.33625112, 1.10974297, 1.12633925, 1.46605685, 2.20891265, 3.43492354], [(-0.524601064), 1.12596172, 2.23461746,
  2.8804458, 3.14252639, 3.0999389, 2.83176297, 2.41707827, 1.93496443, 1.46450113, 1.084768, 0.874844707,
  0.913810903, 1.28074624, 2.05473038, 3.31484296], [(-0.289488447), 1.18641968, 2.16002535, 2.70602204, 2.89910321,
  2.81396236, 2.52529294, 2.10778846, 1.63614237, 1.18504816, 0.829199299, 0.643289272, 0.702011552, 1.08005962,
  1.85212694, 3.09290701], [0.0552692819, 1.28775854, 2.07831656, 2.49430091, 2.60306915, 2.47197885, 2.16838755,
  1.75965283, 1.31313224, 0.89618335, 0.576163712, 0.420430892, 0.496342449, 0.871255945, 1.61252894, 2.787519],
  [0.491242104, 1.42462522, 1.99353441, 2.25554078, 2.26821545, 2.08912953, 1.77585413, 1.38596036, 0.977019326,
  0.606602149, 0.332279936, 0.211623798, 0.302204847, 0.661594194, 1.34736295, 2.41708223], [1.0, 1.59166667,
  1.90972222, 2.0, 1.90833333, 1.68055556, 1.3625, 1.0, 0.638888889, 0.325, 0.104166667, 0.0222222222, 0.125,
  0.458333333, 1.06805556, 2.0], [1.56311295, 1.78352982, 1.83092334, 1.73793693, 1.53721403, 1.26139808,
  0.943132501, 0.615060731, 0.309826203, 0.0600723485, (-0.101557398), (-0.142419605), (-0.0298708387), 0.268732333,
  0.786033344, 1.55467563], [2.16215093, 1.99486162, 1.76118108, 1.47960993, 1.16864878, 0.846798254, 0.53255896,
  0.244431516, 0.000916537382, (-0.17948536), (-0.278273562), (-0.276947452), (-0.157006415), 0.100050164,
  0.512722901, 1.09951241], [2.77868393, 2.220309, 1.70453878, 1.23527736, 0.816428811, 0.451897232, 0.145586708,
  (-0.0985986773), (-0.276754836), (-0.384977682), (-0.419363128), (-0.376007089), (-0.251005477), (-0.0404542058),
  0.259550811, 0.652913659], [3.39428191, 2.4545189, 1.66503977, 1.01519757, 0.494345351, 0.0918361693,
  (-0.202976925), (-0.400740881), (-0.512102647), (-0.54770917), (-0.518207399), (-0.434244283), (-0.306466769),
  (-0.145521806), 0.0379436582, 0.233282675], [3.99051488, 2.69213826, 1.64672737, 0.829628926, 0.216189635,
  (-0.218243782), (-0.498324609), (-0.648706129), (-0.694041625), (-0.65898438), (-0.568187679), (-0.446304804),
  (-0.317989039), (-0.207893666), (-0.140671971), (-0.140977235)], [4.54895279, 2.92781402, 1.65364493, 0.688829787,
  (-0.00424710692), (-0.463201469), (-0.725649013), (-0.829205452), (-0.811486499), (-0.710107867), (-0.56268527),
  (-0.40683442), (-0.280171032), (-0.220310818), (-0.264869492), (-0.451462766)], [5.05116564, 3.15619312,
  1.68983575, 0.603058511, (-0.153173643), (-0.627895738), (-0.870142807), (-0.928949884), (-0.853351999),
  (-0.692384185), (-0.495081475), (-0.310478902), (-0.187611496), (-0.175514291), (-0.323222319), (-0.679770612)],
  [5.4787234, 3.37192249, 1.75934319, 0.582573455, (-0.216798741), (-0.697185434), (-0.916998661), (-0.934650456),
  (-0.808552854), (-0.59711789), (-0.358757599), (-0.151884016), (-0.0349091764), (-0.0662451151), (-0.304303867),
  (-0.807497467)], [5.81319606, 3.56964908, 1.86621056, 0.637632979, (-0.18133117), (-0.655929406), (-0.851409244),
  (-0.833018201), (-0.666003793), (-0.415613535), (-0.147094943), 0.0743044672, 0.18333718, 0.114755679,
  (-0.196687551), (-0.816240027)], [6.03615359, 3.74401982, 2.01448119, 0.778495441, (-0.0329796987), (-0.488986498),
  (-0.658567226), (-0.610764153), (-0.414619546), (-0.139175676), 0.146525189, 0.373440779, 0.472528826, 0.374747061,
  0.0110532133, (-0.687594985)], [6.12916597, 3.88968165, 2.20819842, 1.0154192, 0.242046904, (-0.181215558),
  (-0.323665277), (-0.254599342), (-0.0433148426), 0.240891132, 0.528721493, 0.750879151, 0.838067017, 0.720988,
  0.330345012, (-0.403159036)], [6.07380319, 4.0012815, 2.45140557, 1.35866261, 0.657539871, 0.282524568,
  0.168103934, 0.248765198, 0.458995588, 0.733282336, 1.00611267, 1.21197381, 1.285353, 1.16073747, 0.77261443,
  0.0554711246], [5.85163522, 4.07346633, 2.74814597, 1.81848404, 1.22729043, 0.917375033, 0.831547737, 0.912618434,
  1.10339702, 1.34669338, 1.58531741, 1.762079, 1.81978804, 1.70125443, 1.34928805, 0.706698803], [5.44423205,
  4.10088306, 3.10246296, 2.40514184, 1.96508982, 1.73847699, 1.68147346, 1.75024934, 1.90097472, 2.08981971,
  2.27295441, 2.40654894, 2.44677339, 2.34979786, 2.07179247, 1.5689273], [4.83316365, 4.07817864, 3.51839986,
  3.12889438, 2.88472927, 2.7609716, 2.73268844, 2.77494687, 2.86281395, 2.97135677, 3.07564238, 3.15073786,
  3.17171029, 3.11362673, 2.95155425, 2.66055994], [4.0, 4.0, 4.0, 4.0, 4.0, 4.0, 4.0, 4.0, 4.0, 4.0, 4.0, 4.0, 4.0,
  4.0, 4.0, 4.0]]

/-- `cubic_legacy` in two dimensions: a cubic spline along the columns of every row, then along the rows -/
def cubicKernel (gy gx : List Float) (v : Mat Float) (y x : Float) : Float := cubic gy (v.map (fun r => cubic gx r x)) y

def gridData : List (List Float) := [[0, 1, 0, 1], [2, 2, 2, 1], [0, 3, 3, 3], [1, 2, 1, 2], [4, 4, 4, 4]]

def gridInterpolator : Except Err (Single Unit Float) :=
  singleGrid (fun _ => cubicKernel) true none [0, 3, 7, 15, 31] [0, 3, 7, 15] gridData

def tok0 : TokIn Unit Float → Nat := fun _ => 0

-- test_interpolate
#guard okAnd (gridInterpolator.bind (fun i => i.interpolate tok0 (nums (List.range 32)) (nums (List.range 16)) none ()))
  (closeM 2e-9 1e-7 · cubicExpected)

-- test_interpolate_slices
#guard okAnd (gridInterpolator.bind (fun i => interpolateSlices (i.sci ()) [(0, 32), (0, 16)])) (closeM 2e-9 1e-7 · cubicExpected)

-- test_interpolate_dask, chunks 10 and (10, 5)
#guard okAnd (gridInterpolator.bind (fun i => i.interpolate tok0 (nums (List.range 32)) (nums (List.range 16))
  (some ([10, 10, 10, 2], [10, 6])) ())) (closeM 2e-9 1e-7 · cubicExpected)
#guard okAnd (gridInterpolator.bind (fun i => i.interpolate tok0 (nums (List.range 32)) (nums (List.range 16))
  (some ([10, 10, 10, 2], [5, 5, 5, 1])) ())) (closeM 2e-9 1e-7 · cubicExpected)

def tieLons : List (List Float) := List.replicate 5 [1, 2, 3, 4]
def tieLats : List (List Float) := [1, 2, 3, 4, 5].map (List.replicate 4)
def lonsExpected : List Float := [1, 2, 2.5, 3, 3.25, 3.5, 3.75, 4]
def latsExpected : List Float :=
  [1, 2, 2.5, 3, 3.25, 3.5, 3.75, 4, 4.125, 4.25, 4.375, 4.5, 4.625, 4.75, 4.875, 5]

def geoGrid (be : Bool) (args : List (GeoArg Float)) : Except Err (List (Single Unit Float)) :=
  mkGeo (singleGrid (fun _ => linearKernel) be none [0, 1, 3, 7, 15] [0, 1, 3, 7]) args

def geoSpline (args : List (GeoArg Float)) : Except Err (List (Single Unit Float)) :=
  mkGeo (singleSpline splines 1 1 [0, 1, 3, 7, 15] [0, 1, 3, 7]) args

def asExpected (r : Mat Float × Mat Float) : Bool :=
  closeV 0 5e-5 (r.1.getD 0 []) lonsExpected && closeV 0 5e-5 (r.2.map (·.getD 0 0)) latsExpected

-- test_geogrid_interpolation
#guard okAnd ((geoGrid true [.array tieLons, .array tieLats]).bind (fun is =>
  interpolateGeo tok0 is [nums (List.range 16), nums (List.range 8)] none ())) asExpected
-- the same with an object that knows its cartesian coordinates
#guard
  match Presets.geoTies tieLons tieLats with
  | [x, y, z] => okAnd ((geoGrid true [.pyresample x y z]).bind (fun is =>
      interpolateGeo tok0 is [nums (List.range 16), nums (List.range 8)] none ())) asExpected
  | _ => false
-- test_geogrid_interpolation_counts_its_arguments
#guard fails (geoGrid true [.array [], .array [], .array []]) .valueError
-- test_geogrid_interpolation_to_shape
#guard okAnd ((geoGrid true [.array tieLons, .array tieLats]).bind (fun is =>
  interpolateGeoToShape tok0 is [16, 8] none ())) asExpected
-- the values of test_chunked_geogrid_interpolation
#guard okAnd ((geoGrid true [.array tieLons, .array tieLats]).bind (fun is =>
  interpolateGeoToShape (fun t => t.values.flatten.foldl (fun h v => (h * 31 + v.toUInt64.toNat) % 1000003) 7) is [16, 8]
    (some ([4, 4, 4, 4], [4, 4])) ())) asExpected
-- test_geogrid_interpolation_can_extrapolate: the shape
#guard okAnd ((geoGrid false [.array tieLons, .array tieLats]).bind (fun is =>
  interpolateGeoToShape tok0 is [16, 16] none ())) (fun r => r.1.length == 16 && r.1.all (·.length == 16))
-- outside without `bounds_error=False`
#guard fails ((geoGrid true [.array tieLons, .array tieLats]).bind (fun is =>
  interpolateGeoToShape tok0 is [16, 16] none ())) .valueError
-- test_geospline_interpolation, test_geospline_interpolation_to_shape
#guard okAnd ((geoSpline [.array tieLons, .array tieLats]).bind (fun is =>
  interpolateGeo tok0 is [nums (List.range 16), nums (List.range 8)] none ())) asExpected
#guard okAnd ((geoSpline [.array tieLons, .array tieLats]).bind (fun is =>
  interpolateGeoToShape tok0 is [16, 8] none ())) asExpected

end Verif.Tests
