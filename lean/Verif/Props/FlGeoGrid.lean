import Verif.Props.FlGrid
import Verif.Props.FlRound
import Verif.Props.GridGeo
import Verif.Proofs.FlOdd

/-!
# C07 and C67: geographic grid interpolation with rounding, from longitudes and latitudes to longitudes and latitudes
-/

namespace Verif.Props
open Verif Verif.Interpolator Verif.Spec Verif.Presets Verif.Grid Verif.Geo Verif.FlGeo Verif.Err Fl
variable {r : Rounding} {ε : ℝ}

/-- the cartesian coordinates as computed -/
noncomputable def fwd (r : Rounding) (R lon lat : ℝ) : ℝ × ℝ × ℝ :=
  let F := r.rnd (r.rnd Real.pi / 180)
  let lam := r.rnd (lon * F)
  let phi := r.rnd (lat * F)
  let P := r.rnd (R * r.cos phi)
  (r.rnd (P * r.cos lam), r.rnd (P * r.sin lam), r.rnd (R * r.sin phi))

theorem lonlat2xyz_fl (hp : 8 ≤ r.p) (R lon lat : ℝ) :
    lonlat2xyz (val R) (val lon : Fl r) (val lat) = flpt r (fwd r R lon lat) := by
  have e180 : (180 : Fl r) = val 180 := by
    have := ofNat_of_rep (r := r) 180 (by simpa using rep_180 hp)
    simpa using this
  simp only [lonlat2xyz, deg2rad, e180, pi_eq, val_div_of_ne _ (by norm_num : (180 : ℝ) ≠ 0), val_mul, cos_val, sin_val]
  rfl

theorem earth_fl (hp : 23 ≤ r.p) : (earthRadius : Fl r) = val 6370997 := by
  show val (r.rnd (((63709970 : Nat) : ℝ) / (10 : ℝ) ^ 1)) = _
  have h : Rep r.p ((6370997 : ℤ) : ℝ) := rep_int r.hp1 (by
    refine (by norm_num : |(6370997 : ℤ)| ≤ 2 ^ 23).trans (pow_le_pow_right₀ (by norm_num) hp))
  rw [show (((63709970 : Nat) : ℝ) / (10 : ℝ) ^ 1) = ((6370997 : ℤ) : ℝ) by norm_num, r.rnd_rep h]
  norm_num

/-- a coordinate of the computed tie points -/
noncomputable def flSphere (r : Rounding) (c : ℝ × ℝ × ℝ → ℝ) (lons lats : List (List ℝ)) : List (List ℝ) :=
  List.zipWith (List.zipWith (fun lon lat => c (fwd r 6370997 lon lat))) lons lats

theorem geoTies_fl (hp : 23 ≤ r.p) (lons lats : List (List ℝ)) : geoTies (flvals lons : Mat (Fl r)) (flvals lats)
    = [flvals (flSphere r (·.1) lons lats), flvals (flSphere r (·.2.1) lons lats), flvals (flSphere r (·.2.2) lons lats)] := by
  have hv : ∀ x y, Geo.lonlat2xyz (Geo.earthRadius : Fl r) (val x) (val y) = flpt r (fwd r 6370997 x y) := by
    intro x y
    rw [earth_fl hp]; exact lonlat2xyz_fl (by omega) 6370997 x y
  simp only [geoTies, flvals, flSphere, List.zipWith_map, hv, List.map_zipWith, flpt]

theorem flSphere_dims {n c : Nat} (f : ℝ × ℝ × ℝ → ℝ) {lons lats : List (List ℝ)} (h1 : Dims n c lons) (h2 : Dims n c lats) :
    Dims n c (flSphere r f lons lats) := by
  refine ⟨by simp [flSphere, h1.1, h2.1], ?_⟩
  intro l hl
  obtain ⟨a, ha, b, hb, rfl⟩ := mem_zipWith hl
  simp [h1.2 a ha, h2.2 b hb]

theorem flSphere_get {n c : Nat} (f : ℝ × ℝ × ℝ → ℝ) {lons lats : List (List ℝ)} (h1 : Dims n c lons) (h2 : Dims n c lats)
    {i j : Nat} (hi : i < n) (hj : j < c) : corner (flSphere r f lons lats) i j
      = f (fwd r 6370997 (corner lons i j) (corner lats i j)) := by
  have a1 : i < lons.length := by rw [h1.1]; exact hi
  have a2 : i < lats.length := by rw [h2.1]; exact hi
  have b1 : j < lons[i].length := by rw [h1.2 _ (List.getElem_mem _)]; exact hj
  have b2 : j < lats[i].length := by rw [h2.2 _ (List.getElem_mem _)]; exact hj
  simp [corner, flSphere, a1, a2, b1, b2]

theorem flGrid_value (tok : TokIn Unit (Fl r) → Nat) (be : Bool) (fill : Option (Fl r)) {Y X : List ℝ}
    (h2y : 2 ≤ Y.length) (h2x : 2 ≤ X.length) (V : List (List ℝ)) (fy fx : List ℝ)
    (hin : (∀ y ∈ fy, Inside Y y) ∧ ∀ x ∈ fx, Inside X x) :
    (flGrid be fill Y X V).interpolate tok (fy.map val) (fx.map val) none ()
      = .ok (fy.map (fun y => fx.map (fun x => linearKernel (Y.map val) (X.map val) (flvals V) (val y) (val x)))) := by
  obtain ⟨m, hm, hs, he⟩ := flGrid_entry tok be fill h2y h2x V fy fx hin
  rw [hm]
  congr 1
  refine List.ext_getElem (by simp [hs.1]) fun a ha _ => ?_
  have ha' : a < fy.length := hs.1 ▸ ha
  have hl : m[a].length = fx.length := hs.2 _ (List.getElem_mem ha)
  rw [List.getElem_map]
  refine List.ext_getElem (by simp [hl]) fun b hb _ => ?_
  have hb' : b < fx.length := hl ▸ hb
  have := he a ha' b hb'
  rw [row, getD_of_lt _ _ ha, el, getD_of_lt _ _ hb] at this
  rw [this, List.getElem_map]

/-- construction and interpolation: the conversion of the interpolated coordinates at every fine point -/
theorem geoGrid_fl (hp : 23 ≤ r.p) (tok : TokIn Unit (Fl r) → Nat) (be : Bool) (fill : Option (Fl r)) (Y X : List ℝ)
    (hY : Y.Pairwise (· < ·)) (hX : X.Pairwise (· < ·)) (h2y : 2 ≤ Y.length) (h2x : 2 ≤ X.length)
    (lons lats : List (List ℝ)) (h1 : Dims Y.length X.length lons) (h2 : Dims Y.length X.length lats) (fy fx : List ℝ)
    (hin : (∀ y ∈ fy, Inside Y y) ∧ ∀ x ∈ fx, Inside X x) :
    ∃ is lo la, mkGeo (singleGrid (fun _ => linearKernel) be fill (Y.map val) (X.map val))
        [.array (flvals lons : Mat (Fl r)), .array (flvals lats)] = .ok is ∧
      interpolateGeo tok is [fy.map val, fx.map val] none () = .ok (lo, la) ∧
      Shape fy.length fx.length lo ∧ Shape fy.length fx.length la ∧
      ∀ a (ha : a < fy.length) b (hb : b < fx.length),
        (el (row lo a) b, el (row la a) b) = xyz2lonlat earthRadius defaultThr true
          (linearKernel (Y.map val) (X.map val) (flvals (flSphere r (·.1) lons lats)) (val fy[a]) (val fx[b]),
           linearKernel (Y.map val) (X.map val) (flvals (flSphere r (·.2.1) lons lats)) (val fy[a]) (val fx[b]),
           linearKernel (Y.map val) (X.map val) (flvals (flSphere r (·.2.2) lons lats)) (val fy[a]) (val fx[b])) := by
  have dim := fun c => flSphere_dims (r := r) c h1 h2
  let P : (ℝ × ℝ × ℝ → ℝ) → ℝ → ℝ → Fl r := fun c y x =>
    linearKernel (Y.map val) (X.map val) (flvals (flSphere r c lons lats)) (val y) (val x)
  have made : mkGeo (singleGrid (fun _ => linearKernel) be fill (Y.map val) (X.map val))
      [.array (flvals lons : Mat (Fl r)), .array (flvals lats)] = .ok [flGrid be fill Y X (flSphere r (·.1) lons lats),
        flGrid be fill Y X (flSphere r (·.2.1) lons lats), flGrid be fill Y X (flSphere r (·.2.2) lons lats)] := by
    rw [(C25_arguments _ _ _ [] [] []).1, geoTies_fl hp]
    simp only [List.mapM_cons, List.mapM_nil, flGrid_made be fill hY hX (dim _)]
    rfl
  refine ⟨_, fy.map (fun y => fx.map (fun x => (xyz2lonlat earthRadius defaultThr true
      (P (·.1) y x, P (·.2.1) y x, P (·.2.2) y x)).1)),
    fy.map (fun y => fx.map (fun x => (xyz2lonlat earthRadius defaultThr true
      (P (·.1) y x, P (·.2.1) y x, P (·.2.2) y x)).2)), made, ?_, ?_, ?_, ?_⟩
  · simp only [interpolateGeo, interpolateMultiple, List.map_cons, List.map_nil,
      flGrid_value tok be fill h2y h2x _ fy fx hin, List.mapM_cons, List.mapM_nil, id]
    show toLonLat [_, _, _] = _
    rw [toLonLat_map]
  · exact ⟨by simp, by intro r hr; obtain ⟨y, _, rfl⟩ := List.mem_map.1 hr; simp⟩
  · exact ⟨by simp, by intro r hr; obtain ⟨y, _, rfl⟩ := List.mem_map.1 hr; simp⟩
  · intro a ha b hb
    have entry : ∀ k : Fl r × Fl r → Fl r, el (row (fy.map (fun y => fx.map (fun x => k (xyz2lonlat
        earthRadius defaultThr true (P (·.1) y x, P (·.2.1) y x, P (·.2.2) y x))))) a) b
        = k (xyz2lonlat earthRadius defaultThr true (P (·.1) fy[a] fx[b], P (·.2.1) fy[a] fx[b], P (·.2.2) fy[a] fx[b])) := by
      intro k
      rw [row, getD_of_lt _ _ (by simpa using ha), List.getElem_map, el, getD_of_lt _ _ (by simpa using hb),
        List.getElem_map]
    rw [entry (·.1), entry (·.2)]

/-! ### accuracy -/

/-- a product of a nearby number and a nearby factor -/
theorem fwd_prod {R P D D' x w v : ℝ} (h0 : 0 < ε) (hR : 0 < R) (hPa : |P| ≤ 1.001 * R) (hP : |P - R * D| ≤ 2.01 * ε * R)
    (hD : |D| ≤ 1) (c1 : |D - D'| ≤ 4.8 * ε) (h1 : |x - P * w| ≤ 2.01 * ε * |P * w|) (hw : |w| ≤ 1) (hv : |v| ≤ 1)
    (h2 : |w - v| ≤ 9.5 * ε) : |x - R * D' * v| ≤ 19 * ε * R := by
  have e : x - R * D' * v = (x - P * w) + (P - R * D) * w + R * (D * (w - v)) + R * ((D - D') * v) := by ring
  have hεR := mul_pos h0 hR
  have b1 : |x - P * w| ≤ 2.02 * ε * R := by
    refine h1.trans ?_
    have : |P * w| ≤ 1.001 * R := by
      rw [abs_mul]
      calc |P| * |w| ≤ |P| * 1 := mul_le_mul_of_nonneg_left hw (abs_nonneg _)
        _ ≤ _ := by linarith
    have := mul_le_mul_of_nonneg_left this h0.le
    linarith
  have b2 : |(P - R * D) * w| ≤ 2.01 * ε * R := by
    rw [abs_mul]
    calc _ ≤ |P - R * D| * 1 := mul_le_mul_of_nonneg_left hw (abs_nonneg _)
      _ ≤ _ := by linarith
  have b3 : |R * (D * (w - v))| ≤ R * (9.5 * ε) := by
    rw [abs_mul, abs_mul, abs_of_pos hR]
    refine mul_le_mul_of_nonneg_left ?_ hR.le
    calc _ ≤ 1 * |w - v| := mul_le_mul_of_nonneg_right hD (abs_nonneg _)
      _ ≤ _ := by linarith
  have b4 : |R * ((D - D') * v)| ≤ R * (4.8 * ε) := by
    rw [abs_mul, abs_mul, abs_of_pos hR]
    refine mul_le_mul_of_nonneg_left ?_ hR.le
    calc _ ≤ |D - D'| * 1 := mul_le_mul_of_nonneg_left hv (abs_nonneg _)
      _ ≤ _ := by linarith
  rw [e]
  have t1 := abs_add_le ((x - P * w) + (P - R * D) * w + R * (D * (w - v))) (R * ((D - D') * v))
  have t2 := abs_add_le ((x - P * w) + (P - R * D) * w) (R * (D * (w - v)))
  have t3 := abs_add_le (x - P * w) ((P - R * D) * w)
  linarith

/-- the computed cartesian coordinates -/
theorem fwd_err (h : LibRel r ε) (hε : ε ≤ 1 / 4096) {R lon lat : ℝ} (hR : 0 < R) (hlon : |lon| ≤ 180) (hlat : |lat| ≤ 90) :
    |(fwd r R lon lat).1 - (spherePoint R lon lat).1| ≤ 19 * ε * R ∧
    |(fwd r R lon lat).2.1 - (spherePoint R lon lat).2.1| ≤ 19 * ε * R ∧
    |(fwd r R lon lat).2.2 - (spherePoint R lon lat).2.2| ≤ 19 * ε * R := by
  have h0 := h.pos
  simp only [fwd, spherePoint]
  have hd1 : |r.rnd (lon * r.rnd (r.rnd Real.pi / 180)) - rad lon| ≤ 9.5 * ε := by
    refine le_trans (rad_rel h hε lon) ?_
    rw [abs_rad]
    have h1 : |lon| * (Real.pi / 180) ≤ 180 * (3.1416 / 180) :=
      mul_le_mul hlon (by linarith [Real.pi_lt_d4]) (by linarith [Real.pi_pos]) (by norm_num)
    nlinarith [mul_le_mul_of_nonneg_left h1 h0.le]
  have hd2 : |r.rnd (lat * r.rnd (r.rnd Real.pi / 180)) - rad lat| ≤ 4.8 * ε := by
    refine le_trans (rad_rel h hε lat) ?_
    rw [abs_rad]
    have h1 : |lat| * (Real.pi / 180) ≤ 90 * (3.1416 / 180) :=
      mul_le_mul hlat (by linarith [Real.pi_lt_d4]) (by linarith [Real.pi_pos]) (by norm_num)
    nlinarith [mul_le_mul_of_nonneg_left h1 h0.le]
  obtain ⟨lam, elam⟩ : ∃ lam, lam = r.rnd (lon * r.rnd (r.rnd Real.pi / 180)) := ⟨_, rfl⟩
  obtain ⟨phi, ephi⟩ : ∃ phi, phi = r.rnd (lat * r.rnd (r.rnd Real.pi / 180)) := ⟨_, rfl⟩
  rw [← elam] at hd1 ⊢
  rw [← ephi] at hd2 ⊢
  have hP := prod_rel h hε R (h.cos phi)
  have hz := prod_rel h hε R (h.sin phi)
  have hx := prod_rel h hε (r.rnd (R * r.cos phi)) (h.cos lam)
  have hy := prod_rel h hε (r.rnd (R * r.cos phi)) (h.sin lam)
  obtain ⟨P, eP⟩ : ∃ P, P = r.rnd (R * r.cos phi) := ⟨_, rfl⟩
  rw [← eP] at hP hx hy ⊢
  have c1 := (Real.abs_cos_sub_cos_le phi (rad lat)).trans hd2
  have s1 := (Real.abs_sin_sub_sin_le phi (rad lat)).trans hd2
  have c2 := (Real.abs_cos_sub_cos_le lam (rad lon)).trans hd1
  have s2 := (Real.abs_sin_sub_sin_le lam (rad lon)).trans hd1
  have hcp := Real.abs_cos_le_one phi
  have hsp := Real.abs_sin_le_one phi
  unfold Err.Rel at hP hz hx hy
  rw [abs_mul, abs_of_pos hR] at hP hz
  have hP' : |P - R * Real.cos phi| ≤ 2.01 * ε * R := by
    refine hP.trans (mul_le_mul_of_nonneg_left ?_ (by positivity))
    nlinarith
  have hPa : |P| ≤ 1.001 * R := by
    have h1 : |P| ≤ |P - R * Real.cos phi| + |R * Real.cos phi| := by
      calc |P| = |(P - R * Real.cos phi) + R * Real.cos phi| := by ring_nf
        _ ≤ _ := abs_add_le _ _
    have h2 : |R * Real.cos phi| ≤ R := by rw [abs_mul, abs_of_pos hR]; nlinarith
    nlinarith
  have key : ∀ {x w v : ℝ}, |x - P * w| ≤ 2.01 * ε * |P * w| → |w| ≤ 1 → |v| ≤ 1 → |w - v| ≤ 9.5 * ε →
      |x - R * Real.cos (rad lat) * v| ≤ 19 * ε * R :=
    fun h1 hw hv h2 => fwd_prod h0 hR hPa hP' hcp c1 h1 hw hv h2
  refine ⟨key hx (Real.abs_cos_le_one _) (Real.abs_cos_le_one _) c2, key hy (Real.abs_sin_le_one _) (Real.abs_sin_le_one _) s2, ?_⟩
  have e : r.rnd (R * r.sin phi) - R * Real.sin (rad lat)
      = (r.rnd (R * r.sin phi) - R * Real.sin phi) + R * (Real.sin phi - Real.sin (rad lat)) := by ring
  have b : |R * (Real.sin phi - Real.sin (rad lat))| ≤ R * (4.8 * ε) := by
    rw [abs_mul, abs_of_pos hR]
    exact mul_le_mul_of_nonneg_left s1 hR.le
  have b' : |r.rnd (R * r.sin phi) - R * Real.sin phi| ≤ 2.01 * ε * R := by
    refine hz.trans (mul_le_mul_of_nonneg_left ?_ (by positivity))
    nlinarith
  rw [e]
  have := abs_add_le (r.rnd (R * r.sin phi) - R * Real.sin phi) (R * (Real.sin phi - Real.sin (rad lat)))
  nlinarith [mul_pos h0 hR]

/-- bilinear interpolation of nearby values -/
theorem bilin_diff {y0 y1 x0 x1 y x a b c d a' b' c' d' e : ℝ} (hy : y0 < y1) (hx : x0 < x1) (y1' : y0 ≤ y) (y2 : y ≤ y1)
    (x1' : x0 ≤ x) (x2 : x ≤ x1) (ha : |a - a'| ≤ e) (hb : |b - b'| ≤ e) (hc : |c - c'| ≤ e) (hd : |d - d'| ≤ e) :
    |bilin y0 y1 x0 x1 a b c d y x - bilin y0 y1 x0 x1 a' b' c' d' y x| ≤ e := by
  unfold bilin
  simp only
  obtain ⟨t, et⟩ : ∃ t, t = (y - y0) / (y1 - y0) := ⟨_, rfl⟩
  obtain ⟨s, es⟩ : ∃ s, s = (x - x0) / (x1 - x0) := ⟨_, rfl⟩
  have t0 : 0 ≤ t := et ▸ div_nonneg (by linarith) (by linarith)
  have t1 : t ≤ 1 := et ▸ (div_le_one (by linarith)).2 (by linarith)
  have s0 : 0 ≤ s := es ▸ div_nonneg (by linarith) (by linarith)
  have s1 : s ≤ 1 := es ▸ (div_le_one (by linarith)).2 (by linarith)
  rw [← et, ← es]
  have e1 := abs_convex_le s0 s1 ha hb
  have e2 := abs_convex_le s0 s1 hc hd
  have e3 := abs_convex_le t0 t1 e1 e2
  refine le_trans (le_of_eq ?_) e3
  congr 1; ring

/-- the exact interpolated point: bilinear interpolation of the points of the sphere at the corners of a cell -/
noncomputable def exactPoint (Y X : List ℝ) (lons lats : List (List ℝ)) (i j : Nat) (y x : ℝ) : ℝ × ℝ × ℝ :=
  let q := fun a b => spherePoint 6370997 (corner lons a b) (corner lats a b)
  let f := fun c : ℝ × ℝ × ℝ → ℝ => bilin (Y.getD i 0) (Y.getD (i + 1) 0) (X.getD j 0) (X.getD (j + 1) 0)
    (c (q i j)) (c (q i (j + 1))) (c (q (i + 1) j)) (c (q (i + 1) (j + 1))) y x
  (f (·.1), f (·.2.1), f (·.2.2))

/-- the interpolated coordinates -/
theorem kernel_near (hp : 23 ≤ r.p) (h : LibRel r ε) (hε : ε ≤ 1 / 4096) {Y X : List ℝ}
    (hY : Y.Pairwise (· < ·)) (hX : X.Pairwise (· < ·))
    {lons lats : List (List ℝ)} (h1 : Dims Y.length X.length lons) (h2 : Dims Y.length X.length lats)
    (hlon : ∀ i j : Nat, |corner lons i j| ≤ 180) (hlat : ∀ i j : Nat, |corner lats i j| ≤ 90)
    {i j : Nat} (hi : i + 1 < Y.length) (hj : j + 1 < X.length) {y x : ℝ}
    (y1 : Y[i] ≤ y) (y2 : y ≤ Y[i + 1]) (x1 : X[j] ≤ x) (x2 : x ≤ X[j + 1])
    (c : ℝ × ℝ × ℝ → ℝ) (hc : c = (·.1) ∨ c = (·.2.1) ∨ c = (·.2.2)) :
    ∃ v, linearKernel (Y.map val) (X.map val) (flvals (flSphere r c lons lats)) (val y) (val x) = (val v : Fl r) ∧
      |v - c (exactPoint Y X lons lats i j y x)| ≤ 50 * ε * 6370997 := by
  have h0 := h.pos
  have herr : ∀ a b, a < Y.length → b < X.length →
      |corner (flSphere r c lons lats) a b - c (spherePoint 6370997 (corner lons a b) (corner lats a b))|
        ≤ 19 * ε * 6370997 := by
    intro a b ha hb
    rw [flSphere_get c h1 h2 ha hb]
    obtain ⟨e1, e2, e3⟩ := fwd_err h hε (R := 6370997) (by norm_num) (hlon a b) (hlat a b)
    rcases hc with rfl | rfl | rfl
    exacts [e1, e2, e3]
  have hsp : ∀ lon lat, |c (spherePoint 6370997 lon lat)| ≤ 6370997 := by
    intro lon lat
    have := Real.abs_cos_le_one (rad lat)
    have a1 := Real.abs_cos_le_one (rad lon)
    have a2 := Real.abs_sin_le_one (rad lon)
    have a3 := Real.abs_sin_le_one (rad lat)
    have k : ∀ {u v : ℝ}, |u| ≤ 1 → |v| ≤ 1 → |6370997 * u * v| ≤ 6370997 := by
      intro u v hu hv
      rw [abs_mul, abs_mul, abs_of_pos (by norm_num : (0 : ℝ) < 6370997)]
      have := mul_le_one₀ hu (abs_nonneg v) hv
      nlinarith
    rcases hc with rfl | rfl | rfl
    · exact k this a1
    · exact k this a2
    · show |6370997 * Real.sin (rad lat)| ≤ _
      have := k a3 (by norm_num : |(1 : ℝ)| ≤ 1)
      rwa [mul_one] at this
  have hM : ∀ a b : Nat, |corner (flSphere r c lons lats) a b| ≤ (1 + 19 * ε) * 6370997 := by
    intro a b
    by_cases ha : a < Y.length ∧ b < X.length
    · have e1 := herr a b ha.1 ha.2
      have e2 := hsp (corner lons a b) (corner lats a b)
      have := abs_add_le (corner (flSphere r c lons lats) a b - c (spherePoint 6370997 (corner lons a b) (corner lats a b)))
        (c (spherePoint 6370997 (corner lons a b) (corner lats a b)))
      rw [sub_add_cancel] at this
      linarith
    · have hd := flSphere_dims (r := r) c h1 h2
      have : corner (flSphere r c lons lats) a b = 0 := by
        unfold corner
        rw [List.getD_eq_getElem?_getD, List.getD_eq_getElem?_getD]
        by_cases ha' : a < Y.length
        · have hb : X.length ≤ b := by
            by_contra hb; exact ha ⟨ha', not_le.1 hb⟩
          have hal : a < (flSphere r c lons lats).length := by rw [hd.1]; exact ha'
          rw [List.getElem?_eq_getElem hal, Option.getD_some,
            List.getElem?_eq_none (by rw [hd.2 _ (List.getElem_mem hal)]; exact hb)]
          rfl
        · rw [List.getElem?_eq_none (l := flSphere r c lons lats) (by rw [hd.1]; exact not_lt.1 ha')]
          rfl
      rw [this, abs_zero]; positivity
  have iy : Inside Y y := fun _ => ⟨(sorted_le hY (Nat.zero_le _) (by omega)).trans y1, y2.trans (sorted_le hY (by omega) (by omega))⟩
  have ix : Inside X x := fun _ => ⟨(sorted_le hX (Nat.zero_le _) (by omega)).trans x1, x2.trans (sorted_le hX (by omega) (by omega))⟩
  have hin : (∀ y' ∈ [y], Inside Y y') ∧ ∀ x' ∈ [x], Inside X x' := by
    constructor
    · intro y' hy'; rw [List.mem_singleton.1 hy']; exact iy
    · intro x' hx'; rw [List.mem_singleton.1 hx']; exact ix
  obtain ⟨s, m, e1, e2, -, e3⟩ := C61_grid (r := r) (fun _ => 0) (by omega) true none Y X hY hX (by omega) (by omega)
    (flSphere r c lons lats) (flSphere_dims c h1 h2) _ hM [y] [x] hin
  rw [flGrid_made true none hY hX (flSphere_dims c h1 h2), Except.ok.injEq] at e1
  rw [← e1, flGrid_value _ true none (by omega) (by omega) _ [y] [x] hin, Except.ok.injEq] at e2
  obtain ⟨v, hv, hv'⟩ := e3 0 (by simp) 0 (by simp) i hi j hj y1 y2 x1 x2
  refine ⟨v, ?_, ?_⟩
  · rw [← hv, ← e2]; rfl
  · have hd := bilin_diff (sorted_lt hY (Nat.lt_succ_self i) hi) (sorted_lt hX (Nat.lt_succ_self j) hj) y1 y2 x1 x2
      (herr i j (by omega) (by omega)) (herr i (j + 1) (by omega) hj) (herr (i + 1) j hi (by omega))
      (herr (i + 1) (j + 1) hi hj)
    have ec : c (exactPoint Y X lons lats i j y x) = bilin Y[i] Y[i + 1] X[j] X[j + 1]
        (c (spherePoint 6370997 (corner lons i j) (corner lats i j)))
        (c (spherePoint 6370997 (corner lons i (j + 1)) (corner lats i (j + 1))))
        (c (spherePoint 6370997 (corner lons (i + 1) j) (corner lats (i + 1) j)))
        (c (spherePoint 6370997 (corner lons (i + 1) (j + 1)) (corner lats (i + 1) (j + 1)))) y x := by
      unfold exactPoint
      rw [getD_at Y hi, getD_at Y (by omega : i < Y.length), getD_at X hj, getD_at X (by omega : j < X.length)]
      rcases hc with rfl | rfl | rfl <;> rfl
    rw [ec]
    simp only [List.getElem_cons_zero] at hv'
    refine (abs_sub_le v _ _).trans ((add_le_add hv' hd).trans ?_)
    have hu := h.u
    have hu0 := r.u_pos
    nlinarith

/-- a point with `y = 0` and `x < 0` can only be near positions near the 180-degree meridian -/
theorem near_antimeridian {R η lon lat : ℝ} {p : ℝ × ℝ × ℝ} (hR : 0 < R) (hlon : |lon| ≤ 180) (hlat : |lat| < 90) (hη0 : 0 ≤ η)
    (hη : η < 1) (hn : NearSphere R η lon lat p) (ham : onAntimeridian p) : 180 - 90 * η ≤ |lon| := by
  obtain ⟨x, y, z⟩ := p
  obtain ⟨hy, hx⟩ := ham
  obtain ⟨hpl, -⟩ := hn
  simp only [spherePoint] at hpl hx hy
  have hpi := Real.pi_pos
  have hlr : |rad lat| < Real.pi / 2 := by
    rw [abs_rad, mul_div_assoc', div_lt_iff₀ (by norm_num)]; nlinarith
  have hC : 0 < R * Real.cos (rad lat) := mul_pos hR (Real.cos_pos_of_mem_Ioo (abs_lt.1 hlr))
  obtain ⟨C, eC⟩ : ∃ C, C = R * Real.cos (rad lat) := ⟨_, rfl⟩
  rw [← eC, hy] at hpl
  rw [← eC] at hC
  have hcs := Real.sin_sq_add_cos_sq (rad lon)
  have hC2 : 0 < C ^ 2 := by positivity
  have hη2 : η ^ 2 < 1 := by nlinarith
  have hcos : Real.cos (rad lon) ≤ 0 := by
    by_contra hc
    rw [not_le] at hc
    have h1 : (C * Real.cos (rad lon)) ^ 2 ≤ (x - C * Real.cos (rad lon)) ^ 2 := by
      have := mul_pos hC hc
      nlinarith
    have h2 : C ^ 2 ≤ (η * C) ^ 2 := by
      have e : C ^ 2 = (C * Real.cos (rad lon)) ^ 2 + (0 - C * Real.sin (rad lon)) ^ 2 := by
        linear_combination -(C ^ 2) * hcs
      rw [e]; linarith
    rw [mul_pow] at h2
    nlinarith
  have hsin : |Real.sin (rad lon)| ≤ η := by
    have h2 : C ^ 2 * Real.sin (rad lon) ^ 2 ≤ C ^ 2 * η ^ 2 := by
      have := sq_nonneg (x - C * Real.cos (rad lon))
      nlinarith
    exact abs_le_of_sq_le_sq (le_of_mul_le_mul_left h2 hC2) hη0
  have hl : |rad lon| ≤ Real.pi := by
    rw [abs_rad, mul_div_assoc', div_le_iff₀ (by norm_num)]; nlinarith
  have hl2 : Real.pi / 2 ≤ |rad lon| := by
    by_contra hc
    rw [not_le] at hc
    have := Real.cos_pos_of_mem_Ioo (abs_lt.1 hc)
    linarith
  have hs' : Real.sin (Real.pi - |rad lon|) ≤ η := by
    rw [Real.sin_pi_sub]
    refine le_trans ?_ hsin
    rcases abs_choice (rad lon) with e | e <;> rw [e]
    · exact le_abs_self _
    · rw [Real.sin_neg]; exact neg_le_abs _
  have h3 := Real.mul_le_sin (x := Real.pi - |rad lon|) (by linarith) (by linarith)
  have h4 : Real.pi - |rad lon| ≤ η * Real.pi / 2 := by
    have : 2 / Real.pi * (Real.pi - |rad lon|) ≤ η := h3.trans hs'
    rw [div_mul_eq_mul_div, div_le_iff₀ hpi] at this
    linarith
  rw [abs_rad] at h4
  have h5 : Real.pi * (180 - 90 * η) ≤ Real.pi * |lon| := by linarith
  exact le_of_mul_le_mul_left h5 hpi

/-- a sum is a floating point number -/
theorem add_rep {a b : Fl r} {v : ℝ} (h : a + b = val v) : Rep r.p v := by
  cases a with
  | bad => cases h
  | val a =>
    cases b with
    | bad => cases h
    | val b => rw [val_add, val.injEq] at h; exact h ▸ r.rep _

/-- triangle inequality in the plane -/
theorem plane_add {a b c d s t : ℝ} (h1 : a ^ 2 + b ^ 2 ≤ s ^ 2) (h2 : c ^ 2 + d ^ 2 ≤ t ^ 2) (hs : 0 ≤ s) (ht : 0 ≤ t) :
    (a + c) ^ 2 + (b + d) ^ 2 ≤ (s + t) ^ 2 := by
  have h3 : (a * c + b * d) ^ 2 ≤ (s * t) ^ 2 := by
    have e : (a * c + b * d) ^ 2 + (a * d - b * c) ^ 2 = (a ^ 2 + b ^ 2) * (c ^ 2 + d ^ 2) := by ring
    have := mul_le_mul h1 h2 (by positivity) (by positivity)
    rw [mul_pow]
    linarith [sq_nonneg (a * d - b * c)]
  have h4 := (abs_le.1 (abs_le_of_sq_le_sq h3 (by positivity))).2
  linarith [add_sq a c, add_sq b d, add_sq s t]

theorem near_add {R η e lon lat : ℝ} {p q : ℝ × ℝ × ℝ} (hR : 0 < R) (hlat : |lat| < 90) (he : 0 ≤ e)
    (hn : NearSphere R η lon lat q) (h1 : |p.1 - q.1| ≤ 50 * e * R) (h2 : |p.2.1 - q.2.1| ≤ 50 * e * R)
    (h3 : |p.2.2 - q.2.2| ≤ 50 * e * R) : 0 ≤ η ∧ NearSphere R (η + 71 * e / Real.cos (rad lat)) lon lat p := by
  have hpi := Real.pi_pos
  have hlr : |rad lat| < Real.pi / 2 := by
    rw [abs_rad, mul_div_assoc', div_lt_iff₀ (by norm_num)]; nlinarith
  have hcos : 0 < Real.cos (rad lat) := Real.cos_pos_of_mem_Ioo (abs_lt.1 hlr)
  have hη : 0 ≤ η := nonneg_of_mul_nonneg_left ((abs_nonneg _).trans hn.2) hR
  refine ⟨hη, ?_, ?_⟩
  · have hsq : (p.1 - q.1) ^ 2 + (p.2.1 - q.2.1) ^ 2 ≤ (71 * e * R) ^ 2 := by
      have a1 := pow_le_pow_left₀ (abs_nonneg _) h1 2
      have a2 := pow_le_pow_left₀ (abs_nonneg _) h2 2
      rw [sq_abs] at a1 a2
      nlinarith [sq_nonneg (e * R)]
    have := plane_add hn.1 hsq (by positivity) (by positivity)
    refine le_trans (le_of_eq ?_) (this.trans (le_of_eq ?_))
    · ring
    · field_simp
  · have e1 : p.2.2 - (spherePoint R lon lat).2.2 = (p.2.2 - q.2.2) + (q.2.2 - (spherePoint R lon lat).2.2) := by ring
    rw [e1]
    refine (abs_add_le _ _).trans ?_
    have h4 : 71 * e ≤ 71 * e / Real.cos (rad lat) := le_div_self (by positivity) hcos (Real.cos_le_one _)
    have h5 := mul_le_mul_of_nonneg_right h4 hR.le
    have h6 := mul_nonneg he hR.le
    have h7 := hn.2
    nlinarith

/-- **C67**: geographic grid interpolation with rounding, from longitudes and latitudes to longitudes and latitudes.  If
the exactly interpolated point (bilinear interpolation of the points of the sphere at the four corners) is within `η` of the
point of the sphere at (`lon`, `lat`), the reported position is within `270 sqrt ε + 98 η'` degrees of `lon` on the circle and
`115 η' + 950 ε` degrees of `lat`, where `η' = η + 71 ε / cos lat`; only within `90 η'` degrees of the 180-degree meridian
longitude 0 may be reported instead (`y = 0`, see `C07_negation_rounded`). -/
theorem C67_geo_grid (hp : 23 ≤ r.p) (h : LibRel r ε) (hε : ε ≤ 1 / 4096) (tok : TokIn Unit (Fl r) → Nat) (be : Bool)
    (fill : Option (Fl r)) (Y X : List ℝ) (hY : Y.Pairwise (· < ·)) (hX : X.Pairwise (· < ·)) (h2y : 2 ≤ Y.length)
    (h2x : 2 ≤ X.length) (lons lats : List (List ℝ)) (h1 : Dims Y.length X.length lons) (h2 : Dims Y.length X.length lats)
    (hlon : ∀ i j : Nat, |corner lons i j| ≤ 180) (hlat : ∀ i j : Nat, |corner lats i j| ≤ 90) (fy fx : List ℝ)
    (hin : (∀ y ∈ fy, Inside Y y) ∧ ∀ x ∈ fx, Inside X x) :
    ∃ is lo la, mkGeo (singleGrid (fun _ => linearKernel) be fill (Y.map val) (X.map val))
        [.array (flvals lons : Mat (Fl r)), .array (flvals lats)] = .ok is ∧
      interpolateGeo tok is [fy.map val, fx.map val] none () = .ok (lo, la) ∧
      Shape fy.length fx.length lo ∧ Shape fy.length fx.length la ∧
      ∀ a (ha : a < fy.length) b (hb : b < fx.length) i (hi : i + 1 < Y.length) j (hj : j + 1 < X.length),
        Y[i] ≤ fy[a] → fy[a] ≤ Y[i + 1] → X[j] ≤ fx[b] → fx[b] ≤ X[j + 1] →
        ∀ lon lat η η', |lon| ≤ 180 → |lat| < 90 → NearSphere 6370997 η lon lat (exactPoint Y X lons lats i j fy[a] fx[b]) →
          η' = η + 71 * ε / Real.cos (rad lat) → η' ≤ 1 / 100 →
          (∃ L, el (row lo a) b = val L ∧
            (LonWithin (270 * √ε + 98 * η') L lon ∨ (L = 0 ∧ 180 - 90 * η' ≤ |lon|))) ∧
          (∃ B, el (row la a) b = val B ∧ |B - lat| ≤ 115 * η' + 950 * ε) := by
  obtain ⟨is, lo, la, e1, e2, s1, s2, e3⟩ := geoGrid_fl hp tok be fill Y X hY hX h2y h2x lons lats h1 h2 fy fx hin
  refine ⟨is, lo, la, e1, e2, s1, s2, ?_⟩
  intro a ha b hb i hi j hj y1 y2 x1 x2 lon lat η η' hlo hla hn eη' hη'
  have near := fun c hc => kernel_near hp h hε hY hX h1 h2 hlon hlat hi hj y1 y2 x1 x2 c hc
  obtain ⟨x, ex, nx⟩ := near (·.1) (Or.inl rfl)
  obtain ⟨y, ey, ny⟩ := near (·.2.1) (Or.inr (Or.inl rfl))
  obtain ⟨z, ez, nz⟩ := near (·.2.2) (Or.inr (Or.inr rfl))
  have hrep : RepPt r (x, y, z) := ⟨add_rep ex, add_rep ey, add_rep ez⟩
  have hres := e3 a ha b hb
  have et : (defaultThr : Fl r) = val (r.rnd (8 / 10)) := by
    show val (r.rnd (((8 : Nat) : ℝ) / (10 : ℝ) ^ 1)) = _
    norm_num
  rw [ex, ey, ez, earth_fl hp, et] at hres
  obtain ⟨hη, hnear⟩ := near_add (p := (x, y, z)) (by norm_num) hla h.pos.le hn nx ny nz
  rw [← eη'] at hnear
  have hη0 : 0 ≤ η' := nonneg_of_mul_nonneg_left ((abs_nonneg _).trans hnear.2) (by norm_num : (0 : ℝ) < 6370997)
  obtain ⟨⟨L, -, l1, l2, l3⟩, B, -, b1, b2⟩ := C64_back_error (r := r) (by omega) h hε (R := 6370997) (by norm_num)
    (thrOk_rnd (by omega)) (r.rep _) hlo hla hη' hrep hnear _ (List.mem_cons_self ..)
  have f1 := congrArg Prod.fst hres
  have f2 := congrArg Prod.snd hres
  simp only at f1 f2
  refine ⟨⟨L, f1.trans l1, ?_⟩, B, f2.trans b1, b2⟩
  by_cases ham : onAntimeridian (x, y, z)
  · exact Or.inr ⟨l3 ham, near_antimeridian (by norm_num) hlo hla hη0 (by linarith) hnear ham⟩
  · exact Or.inl (l2 ham)

private theorem u53 : (Rounding.correct 53 (by norm_num)).u = 1 / 2 ^ 53 := by
  show (2 : ℝ) ^ (-((53 : ℕ) : ℤ)) = _
  rw [zpow_neg, zpow_natCast]; norm_num

/-- doubles: the tie point at longitude 10, latitude 60 -/
example (tok : TokIn Unit (Fl (Rounding.correct 53 (by norm_num))) → Nat) :
    ∃ is lo la, mkGeo (singleGrid (fun _ => linearKernel) true none ([0, 2].map val) ([0, 3].map val))
        [.array (flvals [[10, 20], [11, 21]] : Mat (Fl (Rounding.correct 53 (by norm_num)))),
          .array (flvals [[60, 60], [59, 59]])] = .ok is ∧
      interpolateGeo tok is [[0].map val, [0].map val] none () = .ok (lo, la) ∧
      ∃ L, el (row lo 0) 0 = val L ∧ LonWithin (1 / 10 ^ 5) L 10 := by
  have hcorner : ∀ {a b c d m : ℝ}, 0 ≤ m → |a| ≤ m → |b| ≤ m → |c| ≤ m → |d| ≤ m →
      ∀ i j : Nat, |corner [[a, b], [c, d]] i j| ≤ m := by
    intro a b c d m hm ha hb hc hd i j
    match i, j with
    | 0, 0 => exact ha
    | 0, 1 => exact hb
    | 1, 0 => exact hc
    | 1, 1 => exact hd
    | 0, j + 2 => simpa [corner] using hm
    | 1, j + 2 => simpa [corner] using hm
    | i + 2, j => simpa [corner] using hm
  have hin : (∀ y ∈ [(0 : ℝ)], Inside [0, 2] y) ∧ ∀ x ∈ [(0 : ℝ)], Inside [0, 3] x := by
    constructor
    · intro y hy; rw [List.mem_singleton.1 hy]; intro _; norm_num
    · intro y hy; rw [List.mem_singleton.1 hy]; intro _; norm_num
  have hs : √(Rounding.correct 53 (by norm_num)).u ≤ 1.2 / 10 ^ 8 := by
    rw [u53, Real.sqrt_le_left (by norm_num)]; norm_num
  have hc60 : Real.cos (rad 60) = 1 / 2 := by
    rw [← Real.cos_pi_div_three]; congr 1; unfold rad; ring
  obtain ⟨is, lo, la, e1, e2, -, -, e3⟩ := C67_geo_grid (r := Rounding.correct 53 (by norm_num)) (by show 23 ≤ 53; norm_num)
    (libRel_correct 53 (by norm_num)) (by rw [u53]; norm_num) tok true none [0, 2] [0, 3] (by norm_num) (by norm_num) (by simp)
    (by simp) [[10, 20], [11, 21]] [[60, 60], [59, 59]] ⟨rfl, by simp⟩ ⟨rfl, by simp⟩
    (hcorner (by norm_num) (by norm_num) (by norm_num) (by norm_num) (by norm_num))
    (hcorner (by norm_num) (by norm_num) (by norm_num) (by norm_num) (by norm_num)) [0] [0] hin
  refine ⟨is, lo, la, e1, e2, ?_⟩
  obtain ⟨⟨L, l1, l2⟩, -⟩ := e3 0 (by simp) 0 (by simp) 0 (by simp) 0 (by simp) (by simp) (by simp) (by simp) (by simp)
    10 60 0 _ (by norm_num) (by norm_num) (by
      simp [NearSphere, exactPoint, bilin, corner]) rfl (by rw [hc60, u53]; norm_num)
  refine ⟨L, l1, ?_⟩
  rcases l2 with ⟨k, hk, hk'⟩ | ⟨-, h⟩
  · refine ⟨k, hk, hk'.trans ?_⟩
    rw [hc60]
    have := u53
    rw [this] at hs ⊢
    norm_num at hs ⊢
    linarith
  · exfalso
    rw [hc60, u53] at h
    norm_num at h

/-! ### the 180-degree meridian -/

/-- weights 0 and one half -/
theorem half_fl {a b : ℝ} (c d : ℝ) (ha : Rep r.p a) (hb : Rep r.p b) :
    (val a * (1 - val 0) * (1 - val (1 / 2)) + val b * (1 - val 0) * val (1 / 2) + val c * val 0 * (1 - val (1 / 2))
      + val d * val 0 * val (1 / 2) : Fl r) = val (r.rnd (a / 2 + b / 2)) := by
  have hh : ∀ {x : ℝ}, Rep r.p x → r.rnd (x * (1 / 2)) = x / 2 := by
    intro x hx
    have := hx.scale (-1)
    rw [zpow_neg_one] at this
    rw [show x * (1 / 2) = x * 2⁻¹ by ring, r.rnd_rep this]; ring
  have h12 : r.rnd (1 - 1 / 2) = 1 / 2 := by
    have := hh (rep_one r.hp1)
    rw [one_mul] at this
    rw [show (1 - 1 / 2 : ℝ) = 1 / 2 by norm_num, this]
  simp only [one_eq, val_sub, val_mul, val_add, sub_zero, r.rnd_one, mul_one, mul_zero, zero_mul, r.rnd_zero, add_zero,
    r.rnd_rep ha, r.rnd_rep hb, h12, hh ha, hh hb, r.rnd_rep (r.rep _)]

/-- **C07, negation with rounding**: the pixel half way between longitudes `a` and `-a` (for instance 179 and -179) on a
parallel is reported at longitude exactly 0, for every `a` and every latitude: its `y` is exactly 0.  The rounding and the
library are only assumed to be symmetric and to have a small relative error, as IEEE arithmetic. -/
theorem C07_negation_rounded (hp : 23 ≤ r.p) (hs : Sym r) (h : LibRel r ε) (hε : ε ≤ 1 / 4096)
    (tok : TokIn Unit (Fl r) → Nat) (be : Bool) (fill : Option (Fl r)) (a b : ℝ) :
    ∃ is lo la, mkGeo (singleGrid (fun _ => linearKernel) be fill ([0, 2].map val) ([0, 2].map val))
        [.array (flvals [[a, -a], [a, -a]] : Mat (Fl r)), .array (flvals [[b, b], [b, b]])] = .ok is ∧
      interpolateGeo tok is [[0].map val, [1].map val] none () = .ok (lo, la) ∧ el (row lo 0) 0 = val 0 := by
  have hin : (∀ y ∈ [(0 : ℝ)], Inside [0, 2] y) ∧ ∀ x ∈ [(1 : ℝ)], Inside [0, 2] x := by
    constructor
    · intro y hy; rw [List.mem_singleton.1 hy]; intro _; norm_num
    · intro y hy; rw [List.mem_singleton.1 hy]; intro _; norm_num
  have hd : ∀ p q : ℝ, Dims [(0 : ℝ), 2].length [(0 : ℝ), 2].length [[p, q], [p, q]] := fun p q => ⟨rfl, by simp⟩
  have hsort : [(0 : ℝ), 2].Pairwise (· < ·) := by norm_num
  obtain ⟨is, lo, la, e1, e2, -, -, e3⟩ := geoGrid_fl hp tok be fill [0, 2] [0, 2] hsort hsort (by simp) (by simp)
    [[a, -a], [a, -a]] [[b, b], [b, b]] (hd _ _) (hd _ _) [0] [1] hin
  refine ⟨is, lo, la, e1, e2, ?_⟩
  have hres := congrArg Prod.fst (e3 0 (by simp) 0 (by simp))
  simp only [List.getElem_cons_zero] at hres
  rw [hres]
  have r2 : Rep r.p (2 : ℝ) := by
    have := (rep_one r.hp1 : Rep r.p 1).scale 1
    rwa [one_mul, zpow_one] at this
  have rh : Rep r.p (1 / 2 : ℝ) := by
    have := (rep_one r.hp1 : Rep r.p 1).scale (-1)
    rwa [one_mul, zpow_neg_one, ← one_div] at this
  have w0 : weight r (0 : ℝ) 2 0 = 0 := weight_left
  have w1 : weight r (0 : ℝ) 2 1 = 1 / 2 := by
    unfold weight
    rw [sub_zero, sub_zero, r.rnd_one, r.rnd_rep r2, r.rnd_rep rh]
  have rfwd : ∀ (lon lat : ℝ) (c : ℝ × ℝ × ℝ → ℝ), c = (·.1) ∨ c = (·.2.1) ∨ c = (·.2.2) →
      Rep r.p (c (fwd r 6370997 lon lat)) := by
    rintro lon lat c (rfl | rfl | rfl) <;> exact r.rep _
  have ker : ∀ c : ℝ × ℝ × ℝ → ℝ, c = (·.1) ∨ c = (·.2.1) ∨ c = (·.2.2) →
      linearKernel ([0, 2].map val) ([0, 2].map val) (flvals (flSphere r c [[a, -a], [a, -a]] [[b, b], [b, b]]))
        (val 0) (val 1) = (val (r.rnd (c (fwd r 6370997 a b) / 2 + c (fwd r 6370997 (-a) b) / 2)) : Fl r) := by
    intro c hc
    rw [linearKernel_fl hsort hsort (flSphere_dims c (hd _ _) (hd _ _)) (i := 0) (j := 0) (by simp) (by simp)
      (Or.inl rfl) (Or.inl rfl) (Or.inl rfl) (Or.inl rfl)]
    simp only [List.getElem_cons_zero, List.getElem_cons_succ, w0, w1]
    exact half_fl _ _ (rfwd a b c hc) (rfwd (-a) b c hc)
  rw [ker (·.1) (Or.inl rfl), ker (·.2.1) (Or.inr (Or.inl rfl)), ker (·.2.2) (Or.inr (Or.inr rfl))]
  -- symmetry
  have hx : (fwd r 6370997 (-a) b).1 = (fwd r 6370997 a b).1 := by
    simp only [fwd, neg_mul, hs.rnd, hs.cos]
  have hy : (fwd r 6370997 (-a) b).2.1 = -(fwd r 6370997 a b).2.1 := by
    simp only [fwd, neg_mul, mul_neg, hs.rnd, hs.sin]
  have hx0 : (fwd r 6370997 a b).1 ≠ 0 := by
    have hc : ∀ d, r.cos (r.rnd (d * r.rnd (r.rnd Real.pi / 180))) ≠ 0 := by
      intro d h0
      have h1 := (h.cos (r.rnd (d * r.rnd (r.rnd Real.pi / 180)))).le_abs
      rw [h0, abs_zero] at h1
      have h2 := abs_pos.2 (cos_rep_ne_zero (r.rep (d * r.rnd (r.rnd Real.pi / 180))))
      have : 0 < 1 - ε := by linarith
      exact absurd h1 (not_le.2 (mul_pos this h2))
    simp only [fwd]
    intro h0
    rcases mul_eq_zero.1 (r.rnd_eq_zero.1 h0) with h1 | h1
    · rcases mul_eq_zero.1 (r.rnd_eq_zero.1 h1) with h2 | h2
      · norm_num at h2
      · exact hc b h2
    · exact hc a h1
  rw [hx, hy]
  have hxr : Rep r.p (fwd r 6370997 a b).1 := rfwd a b _ (Or.inl rfl)
  have ez : r.rnd ((fwd r 6370997 a b).2.1 / 2 + -(fwd r 6370997 a b).2.1 / 2) = 0 := by
    rw [show (fwd r 6370997 a b).2.1 / 2 + -(fwd r 6370997 a b).2.1 / 2 = 0 by ring, r.rnd_zero]
  have ex : r.rnd ((fwd r 6370997 a b).1 / 2 + (fwd r 6370997 a b).1 / 2) = (fwd r 6370997 a b).1 := by
    rw [add_halves, r.rnd_rep hxr]
  rw [ez, ex]
  obtain ⟨v, -, hv⟩ := lon_num (r := r) hxr 1 (y := 0) (fun hc => hx0 hc.1)
  simp only [xyz2lonlat, hyp_val, asign_val, lt_irrefl, if_false]
  cases hq : rad2deg (Trig.acos ((val (fwd r 6370997 a b).1 : Fl r) / val (hyp r (fwd r 6370997 a b).1 0))) with
  | val q => rw [val_mul, mul_zero, r.rnd_zero]
  | bad => rw [hq] at hv; cases hv

/-- doubles, 179 and -179 degrees, latitude 60 -/
example (tok : TokIn Unit (Fl (symRounding 53 (by norm_num))) → Nat) :
    ∃ is lo la, mkGeo (singleGrid (fun _ => linearKernel) true none ([0, 2].map val) ([0, 2].map val))
        [.array (flvals [[179, -179], [179, -179]] : Mat (Fl (symRounding 53 (by norm_num)))),
          .array (flvals [[60, 60], [60, 60]])] = .ok is ∧
      interpolateGeo tok is [[0].map val, [1].map val] none () = .ok (lo, la) ∧ el (row lo 0) 0 = val 0 :=
  C07_negation_rounded (by show 23 ≤ 53; norm_num) (sym_symRounding _ _) (libRel_symRounding _ _) (by
    show (2 : ℝ) ^ (-((53 : ℕ) : ℤ)) ≤ _
    rw [zpow_neg, zpow_natCast]; norm_num) tok true none 179 60

end Verif.Props
