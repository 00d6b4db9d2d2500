import Verif.Tests.Util
import Verif.Model.Presets

/-!
# `test_modis.py` on the model

The first scan of `testdata/test_5_to_1_geoloc_5km.h5` (10^-3 degrees), and some columns of the expected result.
-/

namespace Verif.Tests
open Verif Verif.Interpolator Verif.Presets Verif.Multi

-- test_get_numof_subscene_lines
#guard okAnd (sceneSplits 1060 10 3) (· == [350, 700, 1050])

/-- 5 km longitudes -/
def scan5kmLon : List (List Int) :=
  [[12711, 12434, 12163, 11902, 11651, 11408, 11172, 10944, 10723, 10509, 10301, 10099, 9902, 9711, 9525, 9343, 9164,
  8992, 8825, 8661, 8500, 8343, 8189, 8039, 7891, 7747, 7606, 7467, 7332, 7198, 7067, 6939, 6813, 6689, 6567, 6448,
  6330, 6214, 6100, 5988, 5878, 5769, 5662, 5556, 5452, 5350, 5248, 5149, 5050, 4953, 4857, 4762, 4669, 4576, 4485,
  4395, 4306, 4218, 4131, 4044, 3959, 3875, 3791, 3709, 3627, 3546, 3466, 3386, 3308, 3230, 3153, 3076, 3000, 2925,
  2850, 2776, 2703, 2630, 2558, 2486, 2415, 2344, 2274, 2204, 2135, 2066, 1998, 1930, 1863, 1796, 1729, 1663, 1597,
  1532, 1466, 1402, 1337, 1273, 1209, 1146, 1082, 1019, 957, 894, 832, 770, 709, 647, 586, 525, 464, 403, 342, 281,
  222, 161, 101, 42, -18, -77, -136, -194, -253, -312, -371, -430, -488, -547, -605, -663, -721, -780, -838, -896,
  -954, -1012, -1070, -1128, -1186, -1244, -1302, -1360, -1418, -1476, -1534, -1592, -1650, -1708, -1767, -1825,
  -1884, -1942, -2001, -2060, -2119, -2179, -2238, -2297, -2357, -2416, -2476, -2536, -2596, -2657, -2717, -2778,
  -2838, -2900, -2962, -3023, -3085, -3147, -3209, -3271, -3334, -3397, -3461, -3525, -3589, -3653, -3718, -3783,
  -3849, -3914, -3980, -4047, -4114, -4181, -4249, -4317, -4385, -4454, -4524, -4594, -4665, -4736, -4807, -4880,
  -4953, -5026, -5100, -5174, -5248, -5325, -5402, -5479, -5555, -5635, -5714, -5793, -5874, -5955, -6038, -6121,
  -6206, -6291, -6377, -6464, -6551, -6641, -6731, -6822, -6915, -7008, -7102, -7198, -7295, -7392, -7493, -7595,
  -7698, -7802, -7908, -8016, -8125, -8235, -8348, -8463, -8578, -8697, -8817, -8939, -9061, -9188, -9318, -9451,
  -9585, -9721, -9860, -10003, -10148, -10296, -10448, -10603, -10761, -10924, -11090, -11260, -11435, -11615,
  -11799, -11988, -12183, -12383, -12589, -12802, -13022, -13248, -13483, -13725, -13977], [12697, 12429, 12160,
  11899, 11647, 11403, 11167, 10939, 10718, 10504, 10295, 10093, 9896, 9705, 9518, 9336, 9146, 8983, 8817, 8654,
  8493, 8336, 8182, 8031, 7884, 7740, 7598, 7460, 7324, 7190, 7060, 6931, 6805, 6681, 6559, 6439, 6322, 6206, 6092,
  5980, 5869, 5760, 5653, 5548, 5443, 5341, 5240, 5140, 5041, 4944, 4848, 4753, 4660, 4568, 4476, 4386, 4297, 4209,
  4121, 4035, 3950, 3866, 3782, 3700, 3618, 3537, 3457, 3377, 3298, 3220, 3143, 3067, 2991, 2915, 2841, 2767, 2693,
  2620, 2548, 2476, 2405, 2334, 2264, 2195, 2125, 2057, 1988, 1920, 1853, 1786, 1719, 1653, 1587, 1522, 1457, 1392,
  1327, 1263, 1199, 1136, 1072, 1009, 947, 884, 822, 760, 698, 637, 575, 515, 454, 393, 331, 270, 210, 150, 91, 32,
  -28, -87, -146, -205, -264, -323, -382, -441, -499, -558, -616, -674, -732, -791, -849, -907, -965, -1023, -1081,
  -1139, -1197, -1255, -1313, -1371, -1429, -1487, -1545, -1603, -1662, -1720, -1778, -1837, -1895, -1954, -2013,
  -2072, -2131, -2190, -2250, -2310, -2369, -2429, -2488, -2548, -2609, -2669, -2730, -2790, -2851, -2913, -2974,
  -3036, -3097, -3159, -3222, -3285, -3348, -3411, -3475, -3538, -3603, -3667, -3731, -3797, -3862, -3928, -3994,
  -4061, -4128, -4195, -4263, -4331, -4400, -4469, -4539, -4609, -4680, -4751, -4823, -4895, -4968, -5041, -5115,
  -5189, -5265, -5341, -5418, -5495, -5572, -5651, -5731, -5810, -5891, -5973, -6056, -6139, -6223, -6309, -6395,
  -6482, -6570, -6658, -6749, -6841, -6934, -7027, -7121, -7217, -7315, -7413, -7513, -7615, -7718, -7823, -7929,
  -8036, -8146, -8257, -8369, -8484, -8602, -8720, -8839, -8962, -9086, -9213, -9343, -9475, -9609, -9746, -9886,
  -10029, -10174, -10323, -10475, -10630, -10789, -10952, -11119, -11290, -11465, -11645, -11830, -12020, -12215,
  -12416, -12623, -12836, -13056, -13284, -13519, -13762, -14015]]

/-- 5 km latitudes -/
def scan5kmLat : List (List Int) :=
  [[41642, 41636, 41630, 41623, 41616, 41608, 41600, 41592, 41584, 41576, 41568, 41559, 41550, 41542, 41533, 41524,
  41515, 41506, 41497, 41488, 41479, 41470, 41461, 41452, 41443, 41434, 41424, 41415, 41406, 41397, 41388, 41379,
  41370, 41361, 41352, 41343, 41334, 41325, 41317, 41308, 41299, 41290, 41281, 41273, 41264, 41255, 41247, 41238,
  41229, 41221, 41212, 41204, 41195, 41187, 41179, 41170, 41162, 41153, 41145, 41137, 41129, 41120, 41112, 41104,
  41096, 41087, 41079, 41071, 41063, 41055, 41047, 41039, 41031, 41023, 41015, 41007, 40999, 40991, 40983, 40975,
  40967, 40959, 40951, 40943, 40936, 40928, 40920, 40912, 40904, 40896, 40889, 40881, 40873, 40865, 40857, 40849,
  40842, 40834, 40826, 40818, 40810, 40803, 40795, 40787, 40779, 40771, 40763, 40756, 40748, 40740, 40732, 40724,
  40716, 40708, 40700, 40692, 40684, 40676, 40668, 40660, 40652, 40644, 40636, 40628, 40620, 40612, 40604, 40596,
  40588, 40580, 40571, 40563, 40555, 40547, 40538, 40530, 40522, 40513, 40505, 40496, 40488, 40479, 40471, 40462,
  40454, 40445, 40436, 40428, 40419, 40410, 40401, 40392, 40383, 40374, 40365, 40356, 40346, 40337, 40328, 40318,
  40309, 40299, 40290, 40280, 40271, 40261, 40251, 40241, 40231, 40221, 40211, 40201, 40190, 40180, 40170, 40159,
  40148, 40138, 40127, 40116, 40105, 40094, 40083, 40071, 40060, 40048, 40037, 40025, 40013, 40001, 39989, 39977,
  39964, 39952, 39939, 39926, 39913, 39900, 39887, 39873, 39860, 39846, 39832, 39818, 39804, 39789, 39775, 39760,
  39745, 39730, 39714, 39698, 39682, 39666, 39650, 39633, 39616, 39599, 39581, 39564, 39546, 39527, 39508, 39490,
  39470, 39451, 39431, 39411, 39390, 39368, 39347, 39325, 39302, 39279, 39256, 39232, 39208, 39183, 39157, 39131,
  39105, 39077, 39050, 39021, 38992, 38962, 38931, 38900, 38867, 38834, 38800, 38765, 38729, 38692, 38653, 38614,
  38573, 38531, 38488, 38443, 38397, 38348, 38299, 38247, 38193, 38138, 38079, 38019, 37956, 37890, 37821], [41732,
  41725, 41717, 41709, 41700, 41692, 41683, 41674, 41665, 41655, 41646, 41637, 41627, 41617, 41608, 41598, 41588,
  41578, 41569, 41559, 41549, 41540, 41530, 41520, 41510, 41501, 41491, 41481, 41472, 41462, 41452, 41443, 41433,
  41424, 41414, 41405, 41396, 41386, 41377, 41368, 41359, 41349, 41340, 41331, 41322, 41313, 41304, 41295, 41286,
  41277, 41268, 41259, 41251, 41242, 41233, 41224, 41216, 41207, 41199, 41190, 41181, 41173, 41164, 41156, 41148,
  41139, 41131, 41122, 41114, 41106, 41098, 41089, 41081, 41073, 41065, 41056, 41048, 41040, 41032, 41024, 41016,
  41008, 41000, 40992, 40984, 40976, 40968, 40960, 40952, 40944, 40936, 40928, 40920, 40912, 40904, 40896, 40888,
  40880, 40872, 40864, 40856, 40849, 40841, 40833, 40825, 40817, 40809, 40801, 40793, 40785, 40777, 40769, 40761,
  40753, 40745, 40737, 40729, 40721, 40713, 40705, 40697, 40689, 40681, 40673, 40665, 40657, 40648, 40640, 40632,
  40624, 40616, 40607, 40599, 40591, 40583, 40574, 40566, 40558, 40549, 40541, 40532, 40524, 40515, 40507, 40498,
  40489, 40481, 40472, 40463, 40454, 40445, 40436, 40427, 40418, 40409, 40400, 40391, 40382, 40373, 40363, 40354,
  40344, 40335, 40325, 40316, 40306, 40296, 40286, 40276, 40267, 40257, 40246, 40236, 40226, 40216, 40205, 40194,
  40184, 40173, 40162, 40152, 40141, 40129, 40118, 40107, 40096, 40084, 40072, 40061, 40049, 40037, 40025, 40012,
  40000, 39988, 39975, 39962, 39949, 39936, 39923, 39909, 39896, 39882, 39868, 39854, 39840, 39826, 39811, 39796,
  39781, 39766, 39750, 39734, 39719, 39703, 39686, 39669, 39652, 39635, 39618, 39600, 39582, 39563, 39545, 39526,
  39507, 39487, 39467, 39447, 39426, 39404, 39383, 39361, 39338, 39315, 39292, 39268, 39243, 39218, 39193, 39167,
  39140, 39113, 39085, 39056, 39026, 38996, 38965, 38934, 38901, 38867, 38833, 38798, 38761, 38723, 38685, 38645,
  38604, 38561, 38517, 38471, 38424, 38375, 38324, 38272, 38217, 38160, 38100, 38038, 37974, 37906]]

def presetCols : List Nat := [0, 1, 2, 3, 7, 333, 676, 677, 1200, 1349, 1352, 1353]

/-- expected longitudes -/
def scan1kmLon : List (List Int) :=
  [[12828, 12770, 12714, 12657, 12435, 3454, -996, -1007, -8760, -13810, -13962, -14013], [12827, 12769, 12712,
  12655, 12434, 3452, -998, -1010, -8765, -13817, -13969, -14020], [12826, 12768, 12711, 12654, 12434, 3450, -1000,
  -1012, -8769, -13825, -13977, -14028], [12824, 12766, 12709, 12653, 12433, 3448, -1002, -1014, -8774, -13832,
  -13984, -14036], [12822, 12763, 12706, 12651, 12432, 3446, -1005, -1016, -8778, -13840, -13992, -14043], [12820,
  12759, 12703, 12649, 12430, 3444, -1007, -1018, -8782, -13847, -13999, -14051], [12817, 12753, 12701, 12648, 12430,
  3442, -1009, -1021, -8787, -13855, -14007, -14058], [12814, 12751, 12697, 12646, 12429, 3441, -1011, -1023, -8791,
  -13862, -14015, -14066], [12814, 12750, 12696, 12646, 12428, 3439, -1013, -1025, -8796, -13870, -14022, -14074],
  [12813, 12751, 12697, 12646, 12428, 3437, -1016, -1027, -8800, -13877, -14030, -14081]]

/-- expected latitudes -/
def scan1kmLat : List (List Int) :=
  [[41608, 41607, 41606, 41605, 41601, 41057, 40514, 40512, 39090, 37829, 37787, 37773], [41626, 41625, 41624, 41623,
  41618, 41067, 40523, 40521, 39103, 37846, 37804, 37790], [41644, 41643, 41642, 41641, 41636, 41078, 40532, 40530,
  39115, 37863, 37821, 37807], [41662, 41661, 41660, 41659, 41654, 41088, 40541, 40539, 39128, 37879, 37838, 37824],
  [41680, 41679, 41678, 41677, 41671, 41098, 40549, 40548, 39140, 37896, 37855, 37841], [41698, 41697, 41696, 41695,
  41689, 41109, 40558, 40557, 39152, 37913, 37872, 37858], [41716, 41715, 41714, 41712, 41707, 41119, 40567, 40565,
  39165, 37930, 37889, 37875], [41735, 41733, 41732, 41730, 41725, 41129, 40576, 40574, 39177, 37947, 37906, 37892],
  [41753, 41751, 41750, 41748, 41742, 41139, 40585, 40583, 39190, 37964, 37923, 37909], [41771, 41769, 41768, 41766,
  41760, 41150, 40594, 40592, 39202, 37980, 37940, 37926]]

def degrees (m : List (List Int)) : List (List Float) := m.map (·.map (fun v => Float.ofInt v / 1000))

/-- `modis5kmto1km` with only some fine columns (the first and the last among them) -/
def modis5kmto1kmCols (cols : List Nat) (lons lats : Mat Float) : Except Err (Mat Float × Mat Float) :=
  let lines := lons.length * 5
  geoInterpXyz splines ["y", "x"] ⟨(arange 2 lines 5).map (· / 5), (arange 2 1354 5).map (· / 5), (arange 0 lines 1).map (· / 5),
    (nums cols).map (· / 5), 10, geoTies lons lats, 1, 3⟩

-- test_5_to_1
#guard okAnd (modis5kmto1kmCols presetCols (degrees scan5kmLon) (degrees scan5kmLat)) (fun r =>
  closeM 0.05 1e-7 r.1 (degrees scan1kmLon) && closeM 0.05 1e-7 r.2 (degrees scan1kmLat))

end Verif.Tests
