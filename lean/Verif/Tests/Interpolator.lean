import Verif.Tests.Util

/-!
# `test_interpolator.py` and `test_geointerpolator.py` (class `GeoInterpolator`) on the model
-/

namespace Verif.Tests
open Verif Verif.Interpolator

/-- `TIES_EXP1` (test_geointerpolator.py) -/
def tiesExp1 : List (List Float) :=
  [[6384905.78040055, 6381081.08333225, 6371519.34066148, 6328950.00792935, 6253610.69157758, 6145946.19489936,
  6124413.29556372], [6377591.95940176, 6370997.0, 6354509.6014956, 6305151.62592155, 6223234.99818839,
  6109277.14889072, 6086485.57903118], [6359307.40690478, 6345786.79166939, 6311985.2535809, 6245655.67090206,
  6147295.76471541, 6017604.5338691, 5991666.28769983], [6351993.58590599, 6335702.70833714, 6294975.51441502,
  6221857.28889426, 6116920.07132621, 5980935.48786045, 5953738.5711673], [6338032.26190294, 6320348.4990906,
  6276139.09205974, 6199670.56624433, 6091551.90273768, 5952590.38414781, 5924798.08042984], [6290665.5946295,
  6270385.16249031, 6219684.08214232, 6137100.75832981, 6023313.2794414, 5879194.72399075, 5850371.01290062],
  [6172248.92644589, 6145476.82098957, 6078546.55734877, 5980676.23854351, 5852716.72120069, 5695705.57359808,
  5664303.34407756], [6124882.25917245, 6095513.48438928, 6022091.54743135, 5918106.430629, 5784478.09790441,
  5622309.91344102, 5589876.27654834]]

/-- `TIES_EXP2` (test_geointerpolator.py) -/
def tiesExp2 : List (List Float) :=
  [[6372937.31273379, 6370997.0, 6366146.21816553, 6351605.98629588, 6327412.61244969, 6293626.50067273,
  6286869.27831734], [6353136.46335726, 6345786.79166939, 6327412.61244969, 6299445.69529922, 6261968.60390423,
  6215087.60607344, 6205711.40650728]]

/-- `TIES_EXP4` (test_geointerpolator.py) -/
def tiesExp4 : List (List Float) :=
  [[6381081.08333225, 6381639.66045187, 6372470.10269454, 6353590.21586788, 6325042.05851245], [6370997.0,
  6366146.21816553, 6351605.98629588, 6327412.61244969, 6293626.50067273], [6345786.79166939, 6327412.61244969,
  6299445.69529922, 6261968.60390423, 6215087.60607344], [6335702.70833714, 6311919.17016336, 6278581.57890056,
  6235791.00048604, 6183672.04823372]]

/-- `TIES_EXP5` (test_geointerpolator.py) -/
def tiesExp5 : List (List Float) :=
  [[6381081.08333225, 6371519.34066148, 6328950.00792935, 6253610.69157758, 6145946.19489936], [6370997.0,
  6354509.6014956, 6305151.62592155, 6223234.99818839, 6109277.14889072], [6345786.79166939, 6311985.2535809,
  6245655.67090206, 6147295.76471541, 6017604.5338691], [6270385.16249031, 6219684.08214232, 6137100.75832981,
  6023313.2794414, 5879194.72399075], [6145476.82098957, 6078546.55734877, 5980676.23854351, 5852716.72120069,
  5695705.57359808], [6095513.48438928, 6022091.54743135, 5918106.430629, 5784478.09790441, 5622309.91344102]]

/-- `TIES_EXP6` (test_geointerpolator.py) -/
def tiesExp6 : List (List Float) :=
  [[6381081.08333225, 6371519.34066148, 6328950.00792935, 6253610.69157758, 6145946.19489936], [6370997.0,
  6354509.6014956, 6305151.62592155, 6223234.99818839, 6109277.14889072], [6345786.79166939, 6311985.2535809,
  6245655.67090206, 6147295.76471541, 6017604.5338691], [6335702.70833714, 6294975.51441502, 6221857.28889426,
  6116920.07132621, 5980935.48786045], [6320348.4990906, 6276139.09205974, 6199670.56624433, 6091551.90273768,
  5952590.38414781], [6270385.16249031, 6219684.08214232, 6137100.75832981, 6023313.2794414, 5879194.72399075],
  [6145476.82098957, 6078546.55734877, 5980676.23854351, 5852716.72120069, 5695705.57359808], [6095513.48438928,
  6022091.54743135, 5918106.430629, 5784478.09790441, 5622309.91344102]]

/-- `TIES_EXP7` (test_geointerpolator.py) -/
def tiesExp7 : List (List Float) :=
  [[6372937.31273379, 6370997.0, 6366146.21816553, 6351605.98629588, 6327412.61244969, 6293626.50067273,
  6286869.27831734], [6353136.46335726, 6345786.79166939, 6327412.61244969, 6299445.69529922, 6261968.60390423,
  6215087.60607344, 6205711.40650728]]

/-- the interpolators of the tests -/
def small : Interp Float :=
  ⟨[2, 7], [2, 7, 12, 17, 22], nums (List.range 10), nums (List.range 24), 0, [arangeF 2 5, arangeC 2 5], 1, 3⟩

def smallGeo : Interp Float := { small with tieData := Presets.geoTies (arangeF 2 5) (arangeC 2 5) }

def largeGeo (chunk : Nat) : Interp Float :=
  ⟨[0.4, 1.4, 2.4, 3.4], [2, 7, 12, 17, 22], (nums (List.range 20)).map (· / 5), nums (List.range 24), chunk,
    Presets.geoTies (arangeF 4 5) (arangeC 4 5), 1, 3⟩

-- TestInterpolator.test_extrapolate_cols
#guard okAnd (extrapolateCols small (arangeF 2 5) true true) (closeM 1e-8 1e-5 ·
  [[-0.8, 0, 2, 4, 6, 8, 8.4], [0.2, 1, 3, 5, 7, 9, 9.4]])

-- TestInterpolator.test_fill_col_borders
#guard okAnd (fillCols small) (fun st => closeM 1e-8 1e-5 (st.tieData.getD 0 [])
  [[-0.8, 0, 2, 4, 6, 8, 8.4], [0.2, 1, 3, 5, 7, 9, 9.4]] && closeV 1e-8 1e-5 st.colIdx [0, 2, 7, 12, 17, 22, 23])

-- TestInterpolator.test_extrapolate_rows
#guard okAnd (extrapolateRows (arangeF 2 5) [2, 7] 0 9) (closeM 1e-8 1e-5 ·
  [[-0.4, 1.6, 3.6, 5.6, 7.6], [0, 2, 4, 6, 8], [1, 3, 5, 7, 9], [1.4, 3.4, 5.4, 7.4, 9.4]])

-- TestGeoInterpolator.test_fillborders
#guard
  match fillBorders ["x", "y"] (largeGeo 10) with
  | (.ok (), st) => closeM 0 1e-7 (st.tieData.getD 0 []) tiesExp1
      && closeV 1e-12 1e-7 st.rowIdx ([0, 2, 7, 9, 10, 12, 17, 19].map (· / 5))
      && closeV 1e-8 1e-5 st.colIdx [0, 2, 7, 12, 17, 22, 23]
  | _ => false

-- TestGeoInterpolator.test_extrapolate_cols
#guard okAnd (extrapolateCols smallGeo (smallGeo.tieData.getD 0 []) true true) (closeM 1e-8 1e-5 · tiesExp2)

-- TestGeoInterpolator.test_fill_col_borders
#guard okAnd (fillCols smallGeo) (fun st => closeM 0 1e-7 (st.tieData.getD 0 []) tiesExp7
  && closeV 0 1e-7 st.colIdx [0, 2, 7, 12, 17, 22, 23])

-- TestGeoInterpolator.test_extrapolate_rows
#guard okAnd (extrapolateRows (smallGeo.tieData.getD 0 []) (nums (List.range 10)) (-0.4) 9.4) (closeM 0 1e-7 · tiesExp4)

-- TestGeoInterpolator.test_fill_row_borders
#guard okAnd (fillRows (largeGeo 0)) (fun st => closeM 0 1e-7 (st.tieData.getD 0 []) tiesExp5
  && closeV 1e-12 1e-7 st.rowIdx ([0, 2, 7, 12, 17, 19].map (· / 5)))
#guard okAnd (fillRows (largeGeo 10)) (fun st => closeM 0 1e-7 (st.tieData.getD 0 []) tiesExp6
  && closeV 1e-12 1e-7 st.rowIdx ([0, 2, 7, 9, 10, 12, 17, 19].map (· / 5)))

-- an unknown dimension (line 94)
#guard (match fillBorders ["z"] small with | (.error .nameError, _) => true | _ => false)

end Verif.Tests
