import Verif.Props.Grid
import Verif.Proofs.GridNum
import Verif.Props.PresetsMore

/-!
# C25: geographic grid interpolation
-/

set_option linter.unusedSectionVars false

namespace Verif.Props
open Verif Verif.Interpolator Verif.Spec Verif.Presets Verif.Grid FP

section args
variable {κ α : Type} [Trig α]

/-- **C25 (arguments)**: anything but one or two data arguments is a ValueError, for every interpolator class. -/
theorem C25_argument_count (make : Mat α → Except Err (Single κ α)) (data : List (GeoArg α)) (h1 : data.length ≠ 1)
    (h2 : data.length ≠ 2) : mkGeo make data = .error .valueError := by
  match data with
  | [] => rfl
  | [_] => exact absurd rfl h1
  | [_, _] => exact absurd rfl h2
  | _ :: _ :: _ :: _ => simp [mkGeo, toXyz, bind, Except.bind]

example (make : Mat α → Except Err (Single κ α)) (lons lats alts : Mat α) :
    mkGeo make [.array lons, .array lats, .array alts] = .error .valueError ∧ mkGeo make [] = .error .valueError :=
  ⟨C25_argument_count make _ (by simp) (by simp), C25_argument_count make _ (by simp) (by simp)⟩

/-- **C25 (arguments)**: two arrays give the interpolators of the cartesian coordinates; an object with cartesian
coordinates gives the interpolators of these. -/
theorem C25_arguments (make : Mat α → Except Err (Single κ α)) (lons lats x y z : Mat α) :
    mkGeo make [.array lons, .array lats] = (geoTies lons lats).mapM make ∧
    mkGeo make [.pyresample x y z] = [x, y, z].mapM make := ⟨rfl, rfl⟩

end args

/-! ### conversions -/

theorem toLonLat_map {α : Type} [Trig α] {β γ : Type} (ys : List β) (xs : List γ) (f g h : β → γ → α) :
    toLonLat [ys.map (fun y => xs.map (f y)), ys.map (fun y => xs.map (g y)), ys.map (fun y => xs.map (h y))]
      = .ok (ys.map (fun y => xs.map (fun x => (Geo.xyz2lonlat Geo.earthRadius Geo.defaultThr true
          (f y x, g y x, h y x)).1)), ys.map (fun y => xs.map (fun x => (Geo.xyz2lonlat Geo.earthRadius Geo.defaultThr true
          (f y x, g y x, h y x)).2))) := by
  have key : ∀ k : α × α → α, List.zipWith (fun rx r => List.zipWith (fun a b => k (Geo.xyz2lonlat Geo.earthRadius
      Geo.defaultThr true (a, b))) rx r) (ys.map (fun y => xs.map (f y)))
        (List.zipWith List.zip (ys.map (fun y => xs.map (g y))) (ys.map (fun y => xs.map (h y))))
      = ys.map (fun y => xs.map (fun x => k (Geo.xyz2lonlat Geo.earthRadius Geo.defaultThr true (f y x, g y x, h y x)))) := by
    intro k
    simp only [List.zipWith_map_left, List.zipWith_map_right, List.zipWith_self]
    refine List.map_congr_left (fun y _ => ?_)
    induction xs with
    | nil => rfl
    | cons x xs ih => simp only [List.map_cons, List.zip_cons_cons, List.zipWith_cons_cons, ih]
  rw [toLonLat]
  simp only
  rw [key (·.1), key (·.2)]

/-- a coordinate of the points of the sphere -/
noncomputable def sphere (c : ℝ × ℝ × ℝ → ℝ) (lons lats : List (List ℝ)) : List (List ℝ) :=
  List.zipWith (List.zipWith (fun lon lat => c (spherePoint 6370997 lon lat))) lons lats

theorem earth_val : (Geo.earthRadius : FP ℝ) = val 6370997 := by
  simp only [Geo.earthRadius, lit_eq]; norm_num

theorem geoTies_vals (lons lats : List (List ℝ)) : geoTies (vals lons) (vals lats)
    = [vals (sphere (·.1) lons lats), vals (sphere (·.2.1) lons lats), vals (sphere (·.2.2) lons lats)] := by
  have hv : ∀ x y, Geo.lonlat2xyz (Geo.earthRadius : FP ℝ) (val x) (val y)
      = (val (spherePoint 6370997 x y).1, val (spherePoint 6370997 x y).2.1, val (spherePoint 6370997 x y).2.2) := by
    intro x y
    rw [earth_val]; exact Geo.lonlat2xyz_val 6370997 x y
  simp only [geoTies, vals, sphere, List.zipWith_map, hv, List.map_zipWith]

theorem sphere_dims {r c : Nat} (f : ℝ × ℝ × ℝ → ℝ) {lons lats : List (List ℝ)} (h1 : Dims r c lons) (h2 : Dims r c lats) :
    Dims r c (sphere f lons lats) := by
  refine ⟨by simp [sphere, h1.1, h2.1], ?_⟩
  intro l hl
  obtain ⟨a, ha, b, hb, rfl⟩ := mem_zipWith hl
  simp [h1.2 a ha, h2.2 b hb]

theorem sphere_get {r c : Nat} (f : ℝ × ℝ × ℝ → ℝ) {lons lats : List (List ℝ)} (h1 : Dims r c lons) (h2 : Dims r c lats)
    {i j : Nat} (hi : i < r) (hj : j < c) : ((sphere f lons lats).getD i []).getD j 0
      = f (spherePoint 6370997 ((lons.getD i []).getD j 0) ((lats.getD i []).getD j 0)) := by
  have a1 : i < lons.length := by rw [h1.1]; exact hi
  have a2 : i < lats.length := by rw [h2.1]; exact hi
  have b1 : j < lons[i].length := by rw [h1.2 _ (List.getElem_mem _)]; exact hj
  have b2 : j < lats[i].length := by rw [h2.2 _ (List.getElem_mem _)]; exact hj
  simp [sphere, a1, a2, b1, b2]

/-! ### tie points -/

/-- the grid interpolator of numbers -/
noncomputable def realGrid (be : Bool) (fill : Option (FP ℝ)) (Y X : List ℝ) (V : List (List ℝ)) : Single Unit (FP ℝ) :=
  ⟨Y.map val, X.map val, vals V, fun _ =>
    (⟨Y.map val, X.map val, vals V, be, fill, linearKernel⟩ : Rgi (FP ℝ)).scipy⟩

theorem realGrid_made (be : Bool) (fill : Option (FP ℝ)) {Y X : List ℝ} (hY : Y.Pairwise (· < ·)) (hX : X.Pairwise (· < ·))
    {V : List (List ℝ)} (hV : Dims Y.length X.length V) :
    singleGrid (fun _ => linearKernel) be fill (Y.map val) (X.map val) (vals V) = .ok (realGrid be fill Y X V) := by
  rw [singleGrid, mkRgi_vals _ _ _ hY hX hV]
  rfl

theorem realGrid_ok (be : Bool) (fill : Option (FP ℝ)) {Y X : List ℝ} (hY : 0 < Y.length) (hX : 0 < X.length)
    (V : List (List ℝ)) {fy fx : List ℝ} (hin : be = true → (∀ y ∈ fy, Inside Y y) ∧ ∀ x ∈ fx, Inside X x) :
    ((realGrid be fill Y X V).sci ()).ok (fy.map val) (fx.map val) = true := by
  show (!be || (fy.map (val : ℝ → FP ℝ)).all (fun y => (fx.map (val : ℝ → FP ℝ)).all (fun x => inBounds (Y.map val) y &&
    inBounds (X.map val) x))) = true
  cases be with
  | false => rfl
  | true =>
    obtain ⟨h1, h2⟩ := hin rfl
    simp only [Bool.not_true, Bool.false_or, List.all_map, List.all_eq_true, Function.comp, Bool.and_eq_true,
      inBounds_val hY, inBounds_val hX]
    exact fun y hy x hx => ⟨h1 y hy hY, h2 x hx hX⟩

theorem realGrid_tie (be : Bool) (fill : Option (FP ℝ)) {Y X : List ℝ} (hY : Y.Pairwise (· < ·)) (hX : X.Pairwise (· < ·))
    {V : List (List ℝ)} (hV : Dims Y.length X.length V) (h2y : 2 ≤ Y.length) (h2x : 2 ≤ X.length) {i j : Nat}
    (hi : i < Y.length) (hj : j < X.length) :
    ((realGrid be fill Y X V).sci ()).point (val Y[i]) (val X[j]) = val ((V.getD i []).getD j 0) := by
  have o1 := (outOfBounds_val (by omega : 0 < Y.length) Y[i]).2 ⟨sorted_le hY (Nat.zero_le _) hi,
    sorted_le hY (by omega) (by omega)⟩
  have o2 := (outOfBounds_val (by omega : 0 < X.length) X[j]).2 ⟨sorted_le hX (Nat.zero_le _) hj,
    sorted_le hX (by omega) (by omega)⟩
  have k := linearKernel_tie hY hX hV h2y h2x hi hj
  show Rgi.point _ _ _ = _
  unfold Rgi.point
  cases be <;> cases fill <;> simp only [o1, o2, Bool.or_self, Bool.false_and, Bool.false_eq_true, if_false] <;> exact k

/-- **C25 (tie points)**: strictly increasing positions (at least two in each dimension), longitude and latitude arrays of
numbers of that shape, any options, any fine points (inside the grid if `bounds_error`): construction and interpolation
succeed, and every fine point that is a tie point off the poles and the 180-degree meridian carries the tie longitude and
latitude. -/
theorem C25_tie_points (tok : TokIn Unit (FP ℝ) → Nat) (be : Bool) (fill : Option (FP ℝ)) (Y X : List ℝ)
    (hY : Y.Pairwise (· < ·)) (hX : X.Pairwise (· < ·)) (h2y : 2 ≤ Y.length) (h2x : 2 ≤ X.length)
    (lons lats : List (List ℝ)) (h1 : Dims Y.length X.length lons) (h2 : Dims Y.length X.length lats) (fy fx : List ℝ)
    (hin : be = true → (∀ y ∈ fy, Inside Y y) ∧ ∀ x ∈ fx, Inside X x) :
    ∃ is lo la, mkGeo (singleGrid (fun _ => linearKernel) be fill (Y.map val) (X.map val))
        [.array (vals lons), .array (vals lats)] = .ok is ∧
      interpolateGeo tok is [fy.map val, fx.map val] none () = .ok (lo, la) ∧
      Shape fy.length fx.length lo ∧ Shape fy.length fx.length la ∧
      ∀ a (ha : a < fy.length) b (hb : b < fx.length) i (hi : i < Y.length) j (hj : j < X.length),
        fy[a] = Y[i] → fx[b] = X[j] →
        -180 < (lons.getD i []).getD j 0 → (lons.getD i []).getD j 0 < 180 →
        -90 < (lats.getD i []).getD j 0 → (lats.getD i []).getD j 0 < 90 →
        el (row lo a) b = val ((lons.getD i []).getD j 0) ∧ el (row la a) b = val ((lats.getD i []).getD j 0) := by
  have dim := fun c => sphere_dims c h1 h2
  let P : (ℝ × ℝ × ℝ → ℝ) → FP ℝ → FP ℝ → FP ℝ := fun c => ((realGrid be fill Y X (sphere c lons lats)).sci ()).point
  have made : mkGeo (singleGrid (fun _ => linearKernel) be fill (Y.map val) (X.map val))
      [.array (vals lons), .array (vals lats)] = .ok [realGrid be fill Y X (sphere (·.1) lons lats),
        realGrid be fill Y X (sphere (·.2.1) lons lats), realGrid be fill Y X (sphere (·.2.2) lons lats)] := by
    rw [(C25_arguments _ _ _ [] [] []).1, geoTies_vals]
    simp only [List.mapM_cons, List.mapM_nil, realGrid_made be fill hY hX (dim _)]
    rfl
  have val1 : ∀ c, (realGrid be fill Y X (sphere c lons lats)).interpolate tok (fy.map val) (fx.map val) none ()
      = .ok (fy.map (fun y => fx.map (fun x => P c (val y) (val x)))) := by
    intro c
    show interpolateNumpy _ _ _ = _
    rw [interpolateNumpy, if_pos (realGrid_ok be fill (by omega) (by omega) _ hin)]
    simp only [List.map_map]
    rfl
  refine ⟨_, fy.map (fun y => fx.map (fun x => (Geo.xyz2lonlat Geo.earthRadius Geo.defaultThr true
      (P (·.1) (val y) (val x), P (·.2.1) (val y) (val x), P (·.2.2) (val y) (val x))).1)),
    fy.map (fun y => fx.map (fun x => (Geo.xyz2lonlat Geo.earthRadius Geo.defaultThr true
      (P (·.1) (val y) (val x), P (·.2.1) (val y) (val x), P (·.2.2) (val y) (val x))).2)), made, ?_, ?_, ?_, ?_⟩
  · simp only [interpolateGeo, interpolateMultiple, List.map_cons, List.map_nil, val1, List.mapM_cons, List.mapM_nil, id]
    show toLonLat [_, _, _] = _
    rw [toLonLat_map]
  · exact ⟨by simp, by intro r hr; obtain ⟨y, _, rfl⟩ := List.mem_map.1 hr; simp⟩
  · exact ⟨by simp, by intro r hr; obtain ⟨y, _, rfl⟩ := List.mem_map.1 hr; simp⟩
  · intro a ha b hb i hi j hj ea eb g1 g2 g3 g4
    have hr := C01_roundtrip_partial 6370997 (((8 : Nat) : ℝ) / 10 ^ 1) _ _ true (by norm_num) g1 g2 g3 g4
    rw [Geo.lonlat2xyz_val, ← earth_val] at hr
    have hp : ∀ c, P c (val fy[a]) (val fx[b])
        = val (c (spherePoint 6370997 ((lons.getD i []).getD j 0) ((lats.getD i []).getD j 0))) := by
      intro c
      rw [ea, eb]
      show ((realGrid be fill Y X (sphere c lons lats)).sci ()).point _ _ = _
      rw [realGrid_tie be fill hY hX (dim c) h2y h2x hi hj, sphere_get c h1 h2 hi hj]
    have entry : ∀ k : FP ℝ × FP ℝ → FP ℝ, el (row (fy.map (fun y => fx.map (fun x => k (Geo.xyz2lonlat Geo.earthRadius
        Geo.defaultThr true (P (·.1) (val y) (val x), P (·.2.1) (val y) (val x), P (·.2.2) (val y) (val x)))))) a) b
        = k (val ((lons.getD i []).getD j 0), val ((lats.getD i []).getD j 0)) := by
      intro k
      rw [row, getD_of_lt _ _ (by simpa using ha), List.getElem_map, el, getD_of_lt _ _ (by simpa using hb),
        List.getElem_map, hp, hp, hp]
      exact congrArg k hr
    exact ⟨entry (·.1), entry (·.2)⟩

/-- **C25 (outside)**: with the default options (`bounds_error=True`) a grid of fine points with one of them outside the
tie positions is a ValueError. -/
theorem C25_outside (tok : TokIn Unit (FP ℝ) → Nat) (fill : Option (FP ℝ)) (Y X : List ℝ)
    (hY : Y.Pairwise (· < ·)) (hX : X.Pairwise (· < ·)) (h2y : 2 ≤ Y.length) (h2x : 2 ≤ X.length)
    (lons lats : List (List ℝ)) (h1 : Dims Y.length X.length lons) (h2 : Dims Y.length X.length lats) (fy fx : List ℝ)
    (y x : ℝ) (hy : y ∈ fy) (hx : x ∈ fx) (hout : ¬ (Inside Y y ∧ Inside X x)) :
    ∃ is, mkGeo (singleGrid (fun _ => linearKernel) true fill (Y.map val) (X.map val))
        [.array (vals lons), .array (vals lats)] = .ok is ∧
      interpolateGeo tok is [fy.map val, fx.map val] none () = .error .valueError := by
  have dim := fun c => sphere_dims c h1 h2
  have made : mkGeo (singleGrid (fun _ => linearKernel) true fill (Y.map val) (X.map val))
      [.array (vals lons), .array (vals lats)] = .ok [realGrid true fill Y X (sphere (·.1) lons lats),
        realGrid true fill Y X (sphere (·.2.1) lons lats), realGrid true fill Y X (sphere (·.2.2) lons lats)] := by
    rw [(C25_arguments _ _ _ [] [] []).1, geoTies_vals]
    simp only [List.mapM_cons, List.mapM_nil, realGrid_made true fill hY hX (dim _)]
    rfl
  have bad : ∀ c, (realGrid true fill Y X (sphere c lons lats)).interpolate tok (fy.map val) (fx.map val) none ()
      = .error .valueError := by
    intro c
    show interpolateNumpy _ _ _ = _
    rw [interpolateNumpy, if_neg]
    show ¬ (!true || (fy.map (val : ℝ → FP ℝ)).all (fun y => (fx.map (val : ℝ → FP ℝ)).all (fun x =>
      inBounds (Y.map val) y && inBounds (X.map val) x))) = true
    simp only [Bool.not_true, Bool.false_or, List.all_map, List.all_eq_true, Function.comp, Bool.and_eq_true,
      inBounds_val (by omega : 0 < Y.length), inBounds_val (by omega : 0 < X.length)]
    intro h
    exact hout ⟨fun _ => (h y hy x hx).1, fun _ => (h y hy x hx).2⟩
  refine ⟨_, made, ?_⟩
  simp only [interpolateGeo, interpolateMultiple, List.map_cons, bad, List.mapM_cons, id]
  rfl

section chunks
variable {κ α : Type} [Trig α]

/-- **C25 (chunks)**: `interpolate_to_shape` of a geographic grid interpolator gives the same with chunks as without. -/
theorem C25_chunks (tok : TokIn κ α → Nat) (kernel : κ → List α → List α → Mat α → α → α → α) (be : Bool)
    (fill : Option α) (py px : List α) (data : List (GeoArg α)) (is : List (Single κ α))
    (h : mkGeo (singleGrid kernel be fill py px) data = .ok is) (rc cc : List Nat) (kw : κ) :
    interpolateGeoToShape tok is [rc.sum, cc.sum] (some (rc, cc)) kw
      = interpolateGeoToShape tok is [rc.sum, cc.sum] none kw := by
  unfold mkGeo at h
  cases hd : toXyz data with
  | error e => rw [hd] at h; cases h
  | ok d =>
    rw [hd] at h
    have := C24_grid_chunks tok kernel be fill py px d is h rc cc kw
    unfold interpolateToShape at this
    unfold interpolateGeoToShape interpolateGeo
    rw [this]

end chunks

/-- three by two tie points; the fine rows 0, 2.5 and 5 contain the first and second tie rows -/
example (tok : TokIn Unit (FP ℝ) → Nat) := C25_tie_points tok true none [0, 5, 10] [0, 4] (by norm_num) (by norm_num)
  (by simp) (by simp) [[10, 11], [10, 12], [11, 13]] [[50, 50], [51, 51], [52, 52]] ⟨rfl, by simp⟩ ⟨rfl, by simp⟩
  [0, 5 / 2, 5] [0, 1, 4] (by
    intro _
    constructor <;> intro y hy _ <;> simp only [List.mem_cons, List.not_mem_nil, or_false] at hy <;>
      rcases hy with rfl | rfl | rfl <;> norm_num)

example (tok : TokIn Unit (FP ℝ) → Nat) := C25_outside tok none [0, 5, 10] [0, 4] (by norm_num) (by norm_num)
  (by simp) (by simp) [[10, 11], [10, 12], [11, 13]] [[50, 50], [51, 51], [52, 52]] ⟨rfl, by simp⟩ ⟨rfl, by simp⟩
  [0, 11] [1] 11 1 (by simp) (by simp) (by intro h; have := (h.1 (by simp)).2; norm_num at this)

example (tok : TokIn Unit (FP ℝ) → Nat) : ∃ is, mkGeo (singleGrid (fun (_ : Unit) => linearKernel) false none ([0, 5, 10].map val) ([0, 4].map val))
      [.pyresample (vals [[10, 11], [10, 12], [11, 13]]) (vals [[50, 50], [51, 51], [52, 52]]) (vals [[1, 2], [3, 4], [5, 6]])] = .ok is ∧
    interpolateGeoToShape tok is [10, 6] (some ([7, 3], [6])) () = interpolateGeoToShape tok is [10, 6] none () := by
  have h : ∃ is, mkGeo (singleGrid (fun (_ : Unit) => linearKernel) false none ([0, 5, 10].map val) ([0, 4].map (val : ℝ → FP ℝ)))
      [.pyresample (vals [[10, 11], [10, 12], [11, 13]]) (vals [[50, 50], [51, 51], [52, 52]]) (vals [[1, 2], [3, 4], [5, 6]])] = .ok is := by
    rw [(C25_arguments _ [] [] _ _ _).2]
    simp only [List.mapM_cons, List.mapM_nil]
    rw [realGrid_made false none (by norm_num) (by norm_num) ⟨rfl, by simp⟩, realGrid_made false none (by norm_num) (by norm_num) ⟨rfl, by simp⟩,
      realGrid_made false none (by norm_num) (by norm_num) ⟨rfl, by simp⟩]
    exact ⟨_, rfl⟩
  obtain ⟨is, hi⟩ := h
  exact ⟨is, hi, C25_chunks tok _ _ _ _ _ _ _ hi [7, 3] [6] ()⟩

end Verif.Props
