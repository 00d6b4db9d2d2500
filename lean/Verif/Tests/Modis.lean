import Verif.Tests.Util
import Verif.Spec.ModisSimple

/-!
# `test_modisinterpolator.py` and `test_simple_modis_interpolator.py` on a sample of the test data

Columns at both edges and in the middle of the first scan of `testdata/modis_test_data.h5`, in 10^-6 degrees; the functions
evaluated are the closed formulas of single pixels, which the theorems of `Verif.Proofs.Modis` and
`Verif.Proofs.ModisSimple` prove equal to the modelled loops.  Distances are taken on a sphere (the tests of the repository
use the WGS84 ellipsoid).
-/

namespace Verif.Tests
open Verif Verif.Modis

def cols1 : List Nat := [0, 1, 2, 676, 677, 678, 1351, 1352, 1353]

/-- 1 km longitudes -/
def lon1km : List (List Int) :=
  [[-153204346, -153154251, -153104553, -140753540, -140742554, -140731567, -127827461, -127773254, -127718613],
  [-153210678, -153160553, -153110825, -140755463, -140744476, -140733490, -127828293, -127774071, -127719421],
  [-153217026, -153166870, -153117111, -140757385, -140746399, -140735413, -127829102, -127774872, -127720207],
  [-153223389, -153173203, -153123413, -140759308, -140748322, -140737335, -127829903, -127775658, -127720985],
  [-153229767, -153179565, -153129730, -140761230, -140750244, -140739258, -127830681, -127776428, -127721741],
  [-153236160, -153185928, -153136078, -140763153, -140752167, -140741165, -127831444, -127777184, -127722488],
  [-153242584, -153192322, -153142441, -140765076, -140754089, -140743088, -127832199, -127777924, -127723213],
  [-153249008, -153198715, -153148804, -140766998, -140756012, -140745010, -127832932, -127778641, -127723923],
  [-153255463, -153205139, -153155197, -140768921, -140757935, -140746933, -127833649, -127779350, -127724617],
  [-153261932, -153211578, -153161606, -140770844, -140759857, -140748856, -127834358, -127780045, -127725304]]

/-- 1 km latitudes -/
def lat1km : List (List Int) :=
  [[-32690113, -32703300, -32716362, -35241291, -35242897, -35244503, -36360756, -36362350, -36363930], [-32707710,
  -32720844, -32733856, -35250309, -35251911, -35253517, -36378994, -36380646, -36382282], [-32725304, -32738384,
  -32751347, -35259323, -35260929, -35262535, -36397232, -36398941, -36400635], [-32742893, -32755924, -32768833,
  -35268337, -35269943, -35271549, -36415474, -36417236, -36418987], [-32760475, -32773457, -32786312, -35277355,
  -35278961, -35280563, -36433712, -36435532, -36437344], [-32778057, -32790985, -32803791, -35286369, -35287975,
  -35289581, -36451954, -36453831, -36455696], [-32795635, -32808510, -32821262, -35295383, -35296989, -35298595,
  -36470196, -36472130, -36474052], [-32813210, -32826031, -32838734, -35304401, -35306007, -35307613, -36488438,
  -36490429, -36492413], [-32830776, -32843548, -32856197, -35313416, -35315022, -35316628, -36506683, -36508732,
  -36510769], [-32848343, -32861061, -32873661, -35322433, -35324039, -35325645, -36524929, -36527031, -36529129]]

/-- 1 km sensor zenith angles -/
def satz1km : List (List Int) :=
  [[65610001, 65480003, 65360001, 280000, 270000, 300000, 65309998, 65440002, 65559998], [65610001, 65480003,
  65360001, 190000, 180000, 220000, 65309998, 65440002, 65559998], [65610001, 65480003, 65360001, 110000, 100000,
  150000, 65309998, 65440002, 65559998], [65610001, 65480003, 65360001, 60000, 30000, 120000, 65309998, 65440002,
  65559998], [65610001, 65480003, 65360001, 110000, 100000, 150000, 65309998, 65440002, 65559998], [65610001,
  65480003, 65360001, 190000, 180000, 220000, 65309998, 65440002, 65559998], [65610001, 65480003, 65360001, 280000,
  270000, 300000, 65309998, 65440002, 65559998], [65610001, 65480003, 65360001, 370000, 360000, 380000, 65309998,
  65440002, 65570000], [65610001, 65480003, 65360001, 460000, 450000, 470000, 65320000, 65440002, 65570000],
  [65610001, 65480003, 65360001, 550000, 540000, 560000, 65320000, 65440002, 65570000]]

def rows500 : List Nat := [0, 1, 7, 10, 19]
def cols500 : List Nat := [0, 1, 2, 3, 1353, 1354, 1355, 2704, 2705, 2706, 2707]

/-- 500 m longitudes -/
def lon500m : List (List Int) :=
  [[-153202759, -153177658, -153152679, -153127777, -140747559, -140742065, -140736572, -127773048, -127745758,
  -127718407, -127690979], [-153205917, -153180817, -153155823, -153130920, -140748520, -140743027, -140737534,
  -127773460, -127746170, -127718811, -127691383], [-153224976, -153199829, -153174789, -153149841, -140754288,
  -140748795, -140743301, -127775848, -127748550, -127721176, -127693733], [-153234558, -153209396, -153184326,
  -153159363, -140757172, -140751678, -140746185, -127777000, -127749687, -127722305, -127694847], [-153263550,
  -153238327, -153213196, -153188156, -140765823, -140760345, -140754837, -127780212, -127752899, -127725471,
  -127697945]]

/-- 500 m latitudes -/
def lat500m : List (List Int) :=
  [[-32685715, -32692329, -32698914, -32705463, -35239841, -35240646, -35241447, -36357777, -36358559, -36359344,
  -36360130], [-32694511, -32701115, -32707687, -32714222, -35244347, -35245148, -35245953, -36366924, -36367722,
  -36368519, -36369320], [-32747288, -32753811, -32760307, -32766766, -35271393, -35272198, -35272999, -36421810,
  -36422691, -36423576, -36424461], [-32773663, -32780144, -32786602, -32793022, -35284916, -35285721, -35286522,
  -36449253, -36450180, -36451107, -36452038], [-32852734, -32859100, -32865440, -32871746, -35325489, -35326290,
  -35327095, -36531609, -36532661, -36533722, -36534782]]

def rows250 : List Nat := [0, 1, 2, 17, 37, 38, 39]
def cols250 : List Nat := [0, 1, 3, 6, 2706, 2708, 2711, 5408, 5411, 5412, 5413, 5414, 5415]

/-- 250 m longitudes -/
def lon250m : List (List Int) :=
  [[-153201965, -153189407, -153164368, -153126999, -140747314, -140741821, -140733582, -127772942, -127731987,
  -127718300, -127704597, -127690880, -127677139], [-153203552, -153190979, -153165939, -153128571, -140747803,
  -140742310, -140734070, -127773148, -127732193, -127718506, -127704803, -127691078, -127677338], [-153205124,
  -153192566, -153167526, -153130142, -140748276, -140742783, -140734558, -127773354, -127732399, -127718712,
  -127705009, -127691284, -127677544], [-153228958, -153216370, -153191269, -153153809, -140755493, -140750000,
  -140741760, -127776337, -127735344, -127721642, -127707924, -127694191, -127680435], [-153261124, -153248489,
  -153223328, -153185745, -140765106, -140759613, -140751373, -127779953, -127738945, -127725220, -127711472,
  -127697693, -127683884], [-153262741, -153250107, -153224930, -153187347, -140765594, -140760101, -140751846,
  -127780121, -127739113, -127725388, -127711639, -127697861, -127684052], [-153264359, -153251740, -153226547,
  -153188965, -140766068, -140760574, -140752335, -127780296, -127739281, -127725555, -127711807, -127698029,
  -127684219]]

/-- 250 m latitudes -/
def lat250m : List (List Int) :=
  [[-32683514, -32686829, -32693432, -32703274, -35238716, -35239517, -35240723, -36355492, -36356659, -36357048,
  -36357441, -36357830, -36358223], [-32687912, -32691223, -32697819, -32707653, -35240967, -35241772, -35242973,
  -36360065, -36361244, -36361637, -36362030, -36362427, -36362823], [-32692314, -32695618, -32702209, -32712032,
  -35243221, -35244022, -35245228, -36364635, -36365826, -36366226, -36366623, -36367023, -36367420], [-32758278,
  -32761536, -32768028, -32777710, -35277031, -35277836, -35279037, -36433243, -36434597, -36435047, -36435501,
  -36435951, -36436405], [-32846146, -32849339, -32855701, -32865189, -35322105, -35322910, -35324116, -36524742,
  -36526310, -36526836, -36527359, -36527885, -36528416], [-32850536, -32853725, -32860085, -32869560, -35324360,
  -35325165, -35326370, -36529320, -36530899, -36531425, -36531956, -36532486, -36533016], [-32854931, -32858116,
  -32864464, -32873932, -35326614, -35327419, -35328629, -36533897, -36535484, -36536018, -36536549, -36537083,
  -36537617]]

def cols5 : List Nat := [0, 1, 2, 135, 136, 137, 268, 269, 270]

/-- 5 km longitudes: `lon_1km[2::5, 2::5]` -/
def lon5km : List (List Int) :=
  [[-153117111, -152873779, -152639175, -140746399, -140691467, -140636520, -128298813, -128041840, -127774872],
  [-153148804, -152904785, -152669510, -140756012, -140701050, -140646072, -128303116, -128045898, -127778641]]

/-- 5 km latitudes -/
def lat5km : List (List Int) :=
  [[-32751347, -32814377, -32874619, -35260929, -35268944, -35276932, -36381409, -36390297, -36398941], [-32838734,
  -32900501, -32959534, -35306007, -35314026, -35322021, -36470161, -36480389, -36490429]]

/-- 5 km angles -/
def satz5km : List (List Int) :=
  [[65360001, 64730003, 64120003, 100000, 490000, 940000, 64199997, 64820000, 65440002], [65360001, 64739998,
  64120003, 360000, 600000, 1000000, 64209999, 64820000, 65440002]]

def rows1 : List Nat := [0, 1, 2, 4, 7, 9]
def fine1 : List Nat := [0, 1, 2, 3, 6, 7, 11, 678, 680, 684, 686, 1343, 1346, 1347, 1350, 1352, 1353]

/-- 1 km longitudes expected -/
def lon1kmFine : List (List Int) :=
  [[-153204346, -153154251, -153104553, -153055206, -152909393, -152861496, -152673340, -140731567, -140709610,
  -140665665, -140643692, -128246384, -128092270, -128040131, -127881248, -127773254, -127718613], [-153210678,
  -153160553, -153110825, -153061447, -152915558, -152867630, -152679382, -140733490, -140711517, -140667587,
  -140645599, -128247284, -128093155, -128040985, -127882088, -127774071, -127719421], [-153217026, -153166870,
  -153117111, -153067719, -152921738, -152873779, -152685425, -140735413, -140713440, -140669495, -140647507,
  -128248184, -128094009, -128041840, -127882912, -127774872, -127720207], [-153229767, -153179565, -153129730,
  -153080292, -152934143, -152886139, -152697571, -140739258, -140717270, -140673325, -140651337, -128249924,
  -128095703, -128043503, -127884506, -127776428, -127721741], [-153249008, -153198715, -153148804, -153099274,
  -152952866, -152904785, -152715897, -140745010, -140723038, -140679062, -140657074, -128252426, -128098114,
  -128045898, -127886795, -127778641, -127723923], [-153261932, -153211578, -153161606, -153112015, -152965439,
  -152917297, -152728195, -140748856, -140726868, -140682892, -140660889, -128254044, -128099655, -128047409,
  -127888245, -127780045, -127725304]]

/-- 1 km latitudes expected -/
def lat1kmFine : List (List Int) :=
  [[-32690113, -32703300, -32716362, -32729305, -32767422, -32779900, -32828693, -35244503, -35247707, -35254105,
  -35257298, -36347603, -36352615, -36354267, -36359154, -36362350, -36363930], [-32707710, -32720844, -32733856,
  -32746746, -32784714, -32797138, -32845741, -35253517, -35256721, -35263123, -35266315, -36365402, -36370579,
  -36372284, -36377335, -36380646, -36382282], [-32725304, -32738384, -32751347, -32764187, -32801998, -32814377,
  -32862782, -35262535, -35265739, -35272141, -35275333, -36383205, -36388538, -36390297, -36395515, -36398941,
  -36400635], [-32760475, -32773457, -32786312, -32799049, -32836559, -32848835, -32896854, -35280563, -35283772,
  -35290176, -35293369, -36418808, -36424465, -36426331, -36431881, -36435532, -36437344], [-32813210, -32826031,
  -32838734, -32851315, -32888374, -32900501, -32947937, -35307613, -35310822, -35317226, -35320427, -36472221,
  -36478359, -36480389, -36486439, -36490429, -36492413], [-32848343, -32861061, -32873661, -32886143, -32922897,
  -32934925, -32981976, -35325645, -35328854, -35335262, -35338463, -36507832, -36514294, -36516434, -36522816,
  -36527031, -36529129]]

/-- element of a sample whose columns are `cols` (NaN for a column that is not in the sample) -/
def sample (cols : List Nat) (m : List (List Int)) (i j : Nat) : Float :=
  match (m.getD i []).zip cols |>.find? (fun p => p.2 == j) with
  | some (v, _) => Float.ofInt v / 1e6
  | none => 0.0 / 0.0

/-- distance on the sphere in metres -/
def dist (p q : Float × Float) : Float :=
  let r := 3.14159265358979323846 / 180
  let a := (Float.sin ((p.2 - q.2) * r / 2)) ^ 2
    + Float.cos (p.2 * r) * Float.cos (q.2 * r) * (Float.sin ((p.1 - q.1) * r / 2)) ^ 2
  2 * 6371000 * Float.asin (Float.sqrt a)

/-- every sampled pixel is nearer than `d` to the expected position -/
def within (d : Float) (rows cols : List Nat) (lon lat : List (List Int)) (p : Nat → Nat → Float × Float) : Bool :=
  ((List.range rows.length).zip rows).all (fun r => ((List.range cols.length).zip cols).all (fun c =>
    dist (p r.2 c.2) (Float.ofInt ((lon.getD r.1 []).getD c.1 0) / 1e6, Float.ofInt ((lat.getD r.1 []).getD c.1 0) / 1e6) < d))

def cfg1 (f : Nat) : Cfg := { len := 10, width := 1354, perKm := 1, f := f, fineWidth := 1354 * f, factor5 := f * 2 }
def cfg5 (k : Nat) : Cfg := { len := 2, width := 271, perKm := 5, f := k * 5, fineWidth := 1354 * k, factor5 := k * 2 }

def pixel1 (f : Nat) : Nat → Nat → Float × Float :=
  Spec.Modis.pixel (cfg1 f) (sample cols1 lon1km) (sample cols1 lat1km) (sample cols1 satz1km)
def pixel5 (k : Nat) : Nat → Nat → Float × Float :=
  Spec.Modis.pixel (cfg5 k) (sample cols5 lon5km) (sample cols5 lat5km) (sample cols5 satz5km)

-- test_sat_angle_based_interp, the limits of the repository
#guard within 5 rows500 cols500 lon500m lat500m (pixel1 2)
#guard within 8.3 rows250 cols250 lon250m lat250m (pixel1 4)
#guard within 25 rows1 fine1 lon1kmFine lat1kmFine (pixel5 1)

/-- `map_coordinates(order=1, mode='nearest')` -/
def bilinear : ModisSimple.MapCoord Float := fun rows cols v y x =>
  let g := fun (a b : Nat) => if h : a < rows ∧ b < cols then v ⟨a, h.1⟩ ⟨b, h.2⟩ else 0
  let cl := fun (n : Nat) (z : Float) => if z < 0 then 0 else if z > Float.ofNat (n - 1) then Float.ofNat (n - 1) else z
  let y := cl rows y
  let x := cl cols x
  let i := min y.floor.toUInt64.toNat (rows - 2)
  let j := min x.floor.toUInt64.toNat (cols - 2)
  let t := y - Float.ofNat i
  let s := x - Float.ofNat j
  (1 - t) * ((1 - s) * g i j + s * g i (j + 1)) + t * ((1 - s) * g (i + 1) j + s * g (i + 1) (j + 1))

def simplePixel (f : Nat) : Nat → Nat → Float × Float :=
  Spec.ModisSimple.pixel bilinear f 1354 (sample cols1 lon1km) (sample cols1 lat1km)

-- test_basic_interp, the limits of the repository
#guard within 16 rows500 cols500 lon500m lat500m (simplePixel 2)
#guard within 27.35 rows250 cols250 lon250m lat250m (simplePixel 4)

end Verif.Tests
