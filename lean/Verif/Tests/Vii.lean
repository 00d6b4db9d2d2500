import Verif.Tests.Util
import Verif.Model.Vii

/-!
# `test_viiinterpolator.py` on the model
-/

namespace Verif.Tests
open Verif Verif.Interpolator Verif.Vii

/-- `TEST_LON_1` -/
def viiLon1 : List (List Float) :=
  [[(-12.0), (-11.5), (-11.0), (-10.5), (-10.0), (-9.5)], [(-10.0), (-9.5), (-9.0), (-8.5), (-8.0), (-7.5)], [(-8.0),
  (-7.5), (-7.0), (-6.5), (-6.0), (-5.5)], [(-6.0), (-5.5), (-5.0), (-4.5), (-4.0), (-3.5)], [0.0, 0.5, 1.0, 1.5,
  2.0, 2.5], [2.0, 2.5, 3.0, 3.5, 4.0, 4.5], [4.0, 4.5, 5.0, 5.5, 6.0, 6.5], [6.0, 6.5, 7.0, 7.5, 8.0, 8.5]]

/-- `TEST_LAT_1` -/
def viiLat1 : List (List Float) :=
  [[0.0, 0.5, 1.0, 1.5, 2.0, 2.5], [2.0, 2.5, 3.0, 3.5, 4.0, 4.5], [4.0, 4.5, 5.0, 5.5, 6.0, 6.5], [6.0, 6.5, 7.0,
  7.5, 8.0, 8.5], [12.0, 12.5, 13.0, 13.5, 14.0, 14.5], [14.0, 14.5, 15.0, 15.5, 16.0, 16.5], [16.0, 16.5, 17.0,
  17.5, 18.0, 18.5], [18.0, 18.5, 19.0, 19.5, 20.0, 20.5]]

/-- `TEST_LON_2` -/
def viiLon2 : List (List Float) :=
  [[(-12.0), (-11.50003808), (-11.0), (-10.50011426), (-10.0), (-9.50019052)], [(-10.00243991), (-9.5032411),
  (-9.00366173), (-8.50454031), (-8.00488578), (-7.5058423)], [(-8.0), (-7.50034342), (-7.0), (-6.50042016), (-6.0),
  (-5.50049716)], [(-6.00734362), (-5.50845783), (-5.00857895), (-4.50977302), (-4.00981958), (-3.51109426)], [0.0,
  0.49903263, 1.0, 1.49895241, 2.0, 2.49887151], [1.98257947, 2.48080192, 2.98127841, 3.47941324, 3.97996512,
  4.47801105], [4.0, 4.49870746, 5.0, 5.49862418, 6.0, 6.49853998], [5.97729789, 6.47516183, 6.97594186, 7.47371256,
  7.97456943, 8.47224525]]

/-- `TEST_LAT_2` -/
def viiLat2 : List (List Float) :=
  [[0.0, 0.49998096, 1.0, 1.49994287, 2.0, 2.49990475], [1.99878116, 2.49838091, 2.99817081, 3.49773189, 3.99755935,
  4.49708148], [4.0, 4.4998283, 5.0, 5.49978993, 6.0, 6.49975143], [5.99633155, 6.4957749, 6.99571447, 7.49511791,
  7.99509473, 8.49445789], [12.0, 12.49951634, 13.0, 13.49947623, 14.0, 14.499435779], [13.99129786, 14.4904098,
  14.99064796, 15.48971613, 15.98999196, 16.48901572], [16.0, 16.49935377, 17.0, 17.49931213, 18.0, 18.49927003],
  [17.98865968, 18.48759253, 18.98798235, 19.48686863, 19.98729684, 20.48613573]]

/-- `TEST_LON_3` -/
def viiLon3 : List (List Float) :=
  [[(-12.0), (-11.50444038), (-11.0), (-10.50459822), (-10.0), (-9.50476197)], [(-10.07492627), (-9.58101155),
  (-9.07759836), (-8.5839056), (-8.0803761), (-7.58691614)], [(-8.0), (-7.50510905), (-7.0), (-6.5052934), (-6.0),
  (-5.50548573)], [(-6.0862821), (-5.59332416), (-5.08942935), (-4.59674283), (-4.09272043), (-3.60032066)], [0.0,
  0.49315061, 1.0, 1.49287934, 2.0, 2.49259217], [1.88371709, 2.3739768, 2.87898193, 3.36879304, 3.87395153,
  4.36327924], [4.0, 4.49196335, 5.0, 5.49161771, 6.0, 6.49124808], [5.86287282, 6.35111105, 6.85674573, 7.3443667,
  7.85016382, 8.33710998]]

/-- `TEST_LAT_3` -/
def viiLat3 : List (List Float) :=
  [[45.0, 45.49777998, 46.0, 46.49770107, 47.0, 47.4976192], [46.96258417, 47.4595462, 47.9612508, 48.4581022,
  48.95986481, 49.45660021], [49.0, 49.49744569, 50.0, 50.49735352, 51.0, 51.49725738], [50.95691833, 51.45340364,
  51.95534841, 52.45169855, 52.95370691, 53.55477452], [57.0, 57.50277937, 58.0, 58.50267347, 59.0, 59.50256981],
  [59.04185095, 59.54357898, 60.04020844, 60.54185139, 61.03859839, 61.54015723], [61.0, 61.5023687, 62.0, 62.502271,
  63.0, 63.50217506], [63.03546804, 63.53686131, 64.03394419, 64.53525587, 65.03244567, 65.53367647]]

/-- an array with the dimension names of the tests -/
def da (m : List (List Float)) : DataArray Float :=
  ⟨("num_tie_points_alt", "num_tie_points_act"), (m.getD 0 []).length, m⟩

/-- the arrays of `setUp`: consecutive numbers from `a` -/
def from' (a : Float) (n : Nat) : DataArray Float := da (reshape 4 n ((List.range (4 * n)).map (fun i => a + Float.ofNat i)))

def over360 : DataArray Float :=
  da (reshape 4 6 ((List.range 24).map (fun i => let x := -12 + Float.ofNat i; if x < 0 then x + 360 else x)))

-- test_tie_points_interpolation
#guard okAnd (tiePointsInterpolation [from' 0 6] 3 2) (fun r => match r with
  | [d] => closeV 1e-8 1e-5 (d.rows.getD 0 []) [0, 0.5, 1, 1.5, 2, 2.5]
      && closeV 1e-8 1e-5 (d.rows.map (·.getD 0 0)) [0, 2, 4, 6, 12, 14, 16, 18]
  | _ => false)
#guard fails (tiePointsInterpolation [from' 0 7] 3 2) .valueError

def geoClose (lon lat : List (List Float)) (r : DataArray Float × DataArray Float) : Bool :=
  closeM 1e-8 1e-5 r.1.rows lon && closeM 1e-8 1e-5 r.2.rows lat

-- test_tie_points_geo_interpolation
#guard okAnd (tiePointsGeoInterpolation (from' (-12) 6) (from' 0 6) 3 2 60 0.8) (geoClose viiLon1 viiLat1)
#guard okAnd (tiePointsGeoInterpolation over360 (from' 0 6) 3 2 60 0.8) (geoClose viiLon2 viiLat2)
#guard okAnd (tiePointsGeoInterpolation (from' (-12) 6) (from' 45 6) 3 2 60 0.8) (geoClose viiLon3 viiLat3)
#guard fails (tiePointsGeoInterpolation (from' (-12) 6) (from' 0 7) 3 2 60 0.8) .valueError

end Verif.Tests
