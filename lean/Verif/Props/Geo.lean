import Verif.Proofs.Geo

/-!
# C01–C07: coordinate conversions (exact arithmetic `FP ℝ`)
-/

namespace Verif.Props
open Verif Real FP Verif.Geo

/-- A point of real coordinates as the code sees it. -/
def pt (p : ℝ × ℝ × ℝ) : FP ℝ × FP ℝ × FP ℝ := (val p.1, val p.2.1, val p.2.2)

/-! ## C01 -/

private theorem sphere_rho {R lat : ℝ} (hR : 0 < R) (h1 : -90 < lat) (h2 : lat < 90) :
    0 < R * cos (Spec.rad lat) := by
  obtain ⟨a, b⟩ := rad_bounds h1 h2
  exact mul_pos hR (cos_pos_of_mem_Ioo ⟨a, b⟩)

private theorem lat_sphere {R lon lat t : ℝ} (low : Bool) (hR : 0 < R) (h1 : -90 < lat) (h2 : lat < 90) :
    latFP R t low (Spec.spherePoint R lon lat).1 (Spec.spherePoint R lon lat).2.1
      (Spec.spherePoint R lon lat).2.2 = val lat := by
  obtain ⟨a, b⟩ := rad_bounds h1 h2
  have hm := sphere_rho hR h1 h2
  have hpi := Real.pi_pos
  show latFP R t low (R * cos (Spec.rad lat) * cos (Spec.rad lon))
    (R * cos (Spec.rad lat) * sin (Spec.rad lon)) (R * sin (Spec.rad lat)) = val lat
  unfold latFP
  rw [rho_polar hm.le]
  split
  · rw [if_pos, latZ_eq, mul_div_cancel_left₀ _ hR.ne', arcsin_sin a.le b.le, deg_rad]
    rw [abs_mul, abs_of_pos hR]
    have := abs_sin_le_one (Spec.rad lat)
    nlinarith
  · rw [if_pos]
    · rw [latXY_eq, rho_polar hm.le, mul_div_cancel_left₀ _ hR.ne',
        arccos_cos_abs (by linarith) (by linarith), sgn_mul_pos hR,
        sgn_sin (by linarith) (by linarith), mul_comm, ← deg_mul, mul_comm, sgn_mul_abs, deg_rad]
    · have := cos_le_one (Spec.rad lat)
      nlinarith

/-- **C01 (partial)**: round trip lon/lat → xyz → lon/lat, for longitudes in the *open* interval
(-180, 180).  Missing part of C01: longitude exactly 180, which is false (`C01_negation`). -/
theorem C01_roundtrip_partial (R t lon lat : ℝ) (low : Bool) (hR : 0 < R)
    (hlon1 : -180 < lon) (hlon2 : lon < 180) (hlat1 : -90 < lat) (hlat2 : lat < 90) :
    xyz2lonlat (val R) (val t) low (lonlat2xyz (val R) (val lon) (val lat)) = (val lon, val lat) := by
  have hm := sphere_rho hR hlat1 hlat2
  rw [lonlat2xyz_val, xyz2lonlat_val _ _ _ _ _ _ hR, lat_sphere low hR hlat1 hlat2]
  obtain ⟨a, b⟩ := rad_bounds180 hlon1 hlon2
  simp only [Spec.spherePoint]
  rw [lonFP_of_ne (by rw [rho_polar hm.le]; exact hm), lonR_polar hm a b, deg_rad]

example : xyz2lonlat (val 6370997) (val (4/5)) true
    (lonlat2xyz (val 6370997) (val (-179)) (val 60)) = ((val (-179), val 60) : FP ℝ × FP ℝ) :=
  C01_roundtrip_partial _ _ _ _ _ (by norm_num) (by norm_num) (by norm_num) (by norm_num) (by norm_num)

/-- The reported longitude of a position on the 180-degree meridian is 0. -/
theorem C01_antimeridian_reports_zero (R t lat : ℝ) (low : Bool) (hR : 0 < R)
    (hlat1 : -90 < lat) (hlat2 : lat < 90) :
    xyz2lonlat (val R) (val t) low (lonlat2xyz (val R) (val 180) (val lat)) = (val 0, val lat) := by
  have hm := sphere_rho hR hlat1 hlat2
  rw [lonlat2xyz_val, xyz2lonlat_val _ _ _ _ _ _ hR, lat_sphere low hR hlat1 hlat2]
  have h180 : Spec.rad 180 = π := by unfold Spec.rad; field_simp
  simp only [Spec.spherePoint, h180]
  rw [lonFP_of_ne (by rw [rho_polar hm.le]; exact hm)]
  simp [lonR]

example : xyz2lonlat (val 6370997) (val (8 / 10)) true (lonlat2xyz (val 6370997) (val 180) (val 60))
    = ((val 0, val 60) : FP ℝ × FP ℝ) :=
  C01_antimeridian_reports_zero _ _ _ _ (by norm_num) (by norm_num) (by norm_num)

/-- **C01, negation**: the full statement (longitudes in (-180, 180]) is false: at longitude 180, for every
radius, latitude and threshold, the longitude does not come back. -/
theorem C01_negation (R t lat : ℝ) (low : Bool) (hR : 0 < R) (hlat1 : -90 < lat) (hlat2 : lat < 90) :
    xyz2lonlat (val R) (val t) low (lonlat2xyz (val R) (val 180) (val lat)) ≠ (val 180, val lat) := by
  rw [C01_antimeridian_reports_zero R t lat low hR hlat1 hlat2]
  simp

/-! ## C02 -/

private theorem sgn_sq_of_ne {z : ℝ} (h : z ≠ 0) : sgn z ^ 2 = 1 := by
  rcases lt_or_gt_of_ne h with h | h
  · simp [sgn_neg h]
  · simp [sgn_pos h]

private theorem rho_antimer {x y : ℝ} (hy : y = 0) : rho x y = |x| := by
  unfold rho; rw [hy]; simp [Real.sqrt_mul_self_eq_abs]

/-- the longitude closed form gives back the direction of (x, y) -/
private theorem lonR_dir {x y : ℝ} (hr : 0 < rho x y) (hanti : ¬ (y = 0 ∧ x < 0)) :
    cos (Spec.rad (lonR x y)) = x / rho x y ∧ sin (Spec.rad (lonR x y)) = y / rho x y := by
  have hm := div_rho_mem x y hr
  have e : Spec.rad (lonR x y) = arccos (x / rho x y) * sgn y := by
    unfold lonR; rw [← deg_mul, rad_deg]
  rw [e]
  have hs : sin (arccos (x / rho x y)) = |y| / rho x y := by
    rw [sin_arccos]
    have : 1 - (x / rho x y) ^ 2 = (y / rho x y) ^ 2 := by
      have := rho_sq x y
      field_simp
      linarith
    rw [this, Real.sqrt_sq_eq_abs, abs_div, abs_of_pos hr]
  rcases lt_trichotomy y 0 with h | h | h
  · rw [sgn_neg h]
    simp only [mul_neg, mul_one, cos_neg, sin_neg]
    rw [cos_arccos hm.1 hm.2, hs, abs_of_neg h]
    exact ⟨rfl, by ring⟩
  · have hx : 0 < x := by
      have h0 : ¬ x < 0 := fun hx => hanti ⟨h, hx⟩
      rcases lt_or_eq_of_le (not_lt.mp h0) with h1 | h1
      · exact h1
      · rw [rho_antimer h, ← h1] at hr; simp at hr
    subst h
    rw [rho_antimer rfl, abs_of_pos hx]
    simp [div_self hx.ne']
  · rw [sgn_pos h, mul_one, cos_arccos hm.1 hm.2, hs, abs_of_pos h]
    exact ⟨rfl, rfl⟩

/-- **C02**: xyz → lon/lat → xyz is the identity on the sphere, off the polar axis and off the
180-degree meridian. -/
theorem C02_roundtrip_xyz (R t : ℝ) (low : Bool) (p : ℝ × ℝ × ℝ) (hR : 0 < R)
    (hsphere : Spec.normSq p = R ^ 2) (haxis : Spec.axisDistSq p ≠ 0) (hanti : ¬ Spec.onAntimeridian p) :
    (let ll := xyz2lonlat (val R) (val t) low (pt p)
     lonlat2xyz (val R) ll.1 ll.2) = pt p := by
  obtain ⟨x, y, z⟩ := p
  simp only [Spec.normSq, Spec.axisDistSq, Spec.onAntimeridian, pt] at *
  have hr : 0 < rho x y := (rho_pos_iff x y).mpr haxis
  have hrs := rho_sq x y
  have hzr : z ^ 2 = R ^ 2 - rho x y ^ 2 := by linarith
  have hrR : rho x y ≤ R := by
    apply le_of_sq_le_sq _ hR.le
    nlinarith [sq_nonneg z]
  have hzR : |z| ≤ R := by
    apply abs_le_of_sq_le_sq _ hR.le
    nlinarith [sq_nonneg (rho x y)]
  obtain ⟨hc, hs⟩ := lonR_dir hr hanti
  -- the latitude
  have hlat : ∃ lat, latFP R t low x y z = val lat ∧ cos (Spec.rad lat) = rho x y / R ∧
      sin (Spec.rad lat) = z / R := by
    have hz1 : -1 ≤ z / R := by rw [le_div_iff₀ hR]; linarith [(abs_le.mp hzR).1]
    have hz2 : z / R ≤ 1 := by rw [div_le_iff₀ hR]; linarith [(abs_le.mp hzR).2]
    have hr1 : -1 ≤ rho x y / R := by
      have : 0 ≤ rho x y / R := by positivity
      linarith
    have hr2 : rho x y / R ≤ 1 := by rw [div_le_iff₀ hR]; linarith
    unfold latFP
    split
    · refine ⟨latZ R z, by first | rw [if_pos hzR] | rfl, ?_, ?_⟩
      · rw [latZ_eq, rad_deg, cos_arcsin]
        rw [show 1 - (z / R) ^ 2 = (rho x y / R) ^ 2 by
          rw [div_pow, div_pow, hzr]; field_simp; ring]
        exact Real.sqrt_sq (by positivity)
      · rw [latZ_eq, rad_deg, sin_arcsin hz1 hz2]
    · refine ⟨latXY R x y z, by first | rw [if_pos hrR] | rfl, ?_⟩
      have e : Spec.rad (latXY R x y z) = arccos (rho x y / R) * sgn z := by
        rw [latXY_eq, mul_comm, ← deg_mul, rad_deg]
      have hsin : sin (arccos (rho x y / R)) = |z| / R := by
        rw [sin_arccos, show 1 - (rho x y / R) ^ 2 = (z / R) ^ 2 by
          rw [div_pow, div_pow, hzr]; field_simp]
        rw [Real.sqrt_sq_eq_abs, abs_div, abs_of_pos hR]
      rw [e]
      rcases lt_trichotomy z 0 with h | h | h
      · rw [sgn_neg h]
        simp only [mul_neg, mul_one, cos_neg, sin_neg]
        rw [cos_arccos hr1 hr2, hsin, abs_of_neg h]
        exact ⟨rfl, by ring⟩
      · subst h
        have : rho x y = R := by
          have h2 : rho x y ^ 2 = R ^ 2 := by nlinarith
          exact (sq_eq_sq₀ hr.le hR.le).mp h2
        simp [this, div_self hR.ne']
      · rw [sgn_pos h, mul_one, cos_arccos hr1 hr2, hsin, abs_of_pos h]
        exact ⟨rfl, rfl⟩
  obtain ⟨lat, e1, e2, e3⟩ := hlat
  rw [xyz2lonlat_val _ _ _ _ _ _ hR, lonFP_of_ne hr, e1]
  simp only [lonlat2xyz_val, Spec.spherePoint, e2, e3, hc, hs]
  refine Prod.ext ?_ (Prod.ext ?_ ?_) <;> simp <;> field_simp

example : (let ll := xyz2lonlat (val 3) (val (4/5)) true (pt (-2, 2, 1))
     lonlat2xyz (val 3) ll.1 ll.2) = pt (-2, 2, 1) :=
  C02_roundtrip_xyz 3 (4/5) true (-2, 2, 1) (by norm_num) (by norm_num [Spec.normSq])
    (by norm_num [Spec.axisDistSq]) (by norm_num [Spec.onAntimeridian])

/-! ## C03 -/

private theorem deg_arccos_mem (c : ℝ) : 0 ≤ Spec.deg (arccos c) ∧ Spec.deg (arccos c) ≤ 180 := by
  constructor
  · rw [← deg_zero]; exact deg_strictMono.monotone (arccos_nonneg c)
  · rw [← deg_pi]; exact deg_strictMono.monotone (arccos_le_pi c)

private theorem lonR_mem (x y : ℝ) : -180 ≤ lonR x y ∧ lonR x y ≤ 180 := by
  obtain ⟨h1, h2⟩ := deg_arccos_mem (x / rho x y)
  unfold lonR
  rcases lt_trichotomy y 0 with h | h | h
  · rw [sgn_neg h]; constructor <;> linarith
  · rw [h]; simp
  · rw [sgn_pos h]; constructor <;> linarith

private theorem latZ_mem (R z : ℝ) : -90 ≤ latZ R z ∧ latZ R z ≤ 90 := by
  obtain ⟨h1, h2⟩ := deg_arccos_mem (z / R)
  unfold latZ
  constructor <;> linarith

private theorem latXY_mem (R x y z : ℝ) (hR : 0 < R) : -90 ≤ latXY R x y z ∧ latXY R x y z ≤ 90 := by
  have h0 : 0 ≤ arcsin (rho x y / R) := arcsin_nonneg.mpr (div_nonneg (rho_nonneg _ _) hR.le)
  have h1 : 0 ≤ Spec.deg (arcsin (rho x y / R)) := by
    rw [← deg_zero]; exact deg_strictMono.monotone h0
  have h2 : Spec.deg (arcsin (rho x y / R)) ≤ 90 := by
    rw [← deg_pi_div_two]; exact deg_strictMono.monotone (arcsin_le_pi_div_two _)
  unfold latXY
  rcases lt_trichotomy z 0 with h | h | h
  · rw [sgn_neg h]; constructor <;> linarith
  · rw [h]; simp
  · rw [sgn_pos h]; constructor <;> linarith

/-- **C03**: every longitude returned is in [-180, 180] and every latitude in [-90, 90], for any input
(numbers or not, inside or outside the sphere). -/
theorem C03_range (R t : ℝ) (low : Bool) (hR : 0 < R) (p : FP ℝ × FP ℝ × FP ℝ) (lon lat : ℝ) :
    ((xyz2lonlat (val R) (val t) low p).1 = val lon → -180 ≤ lon ∧ lon ≤ 180) ∧
    ((xyz2lonlat (val R) (val t) low p).2 = val lat → -90 ≤ lat ∧ lat ≤ 90) := by
  obtain ⟨x, y, z⟩ := p
  cases x with
  | bad =>
    refine ⟨by simp [xyz2lonlat], ?_⟩
    cases z with
    | bad => simp [xyz2lonlat]
    | val z =>
      simp only [xyz2lonlat, latZ_expr R z hR]
      rw [val_div_of_ne _ hR.ne']
      cases low
      · simp
      · simp only [aabs_val, lt_val, if_true]
        by_cases hc : |z / R| < t
        · by_cases hz : |z| ≤ R
          · simp only [hc, decide_true, if_true, if_pos hz, val.injEq]
            rintro rfl; exact latZ_mem R z
          · simp [hc, hz]
        · simp [hc]
  | val x =>
    cases y with
    | bad =>
      refine ⟨by simp [xyz2lonlat], ?_⟩
      cases z with
      | bad => simp [xyz2lonlat]
      | val z =>
        simp only [xyz2lonlat, latZ_expr R z hR]
        rw [val_div_of_ne _ hR.ne']
        cases low
        · simp
        · simp only [aabs_val, lt_val, if_true]
          by_cases hc : |z / R| < t
          · by_cases hz : |z| ≤ R
            · simp only [hc, decide_true, if_true, if_pos hz, val.injEq]
              rintro rfl; exact latZ_mem R z
            · simp [hc, hz]
          · simp [hc]
    | val y =>
      cases z with
      | bad =>
        constructor
        · simp only [xyz2lonlat, asign_val', lon_expr, lonFP]
          split
          · simp
          · simp only [val.injEq]; rintro rfl; exact lonR_mem x y
        · have : asign (bad : FP ℝ) = bad := by simp [asign]
          simp [xyz2lonlat, this, aabs]
      | val z =>
        rw [xyz2lonlat_val _ _ _ _ _ _ hR]
        constructor
        · simp only [lonFP]
          split
          · simp
          · simp only [val.injEq]; rintro rfl; exact lonR_mem x y
        · simp only [latFP]
          split
          · split
            · simp only [val.injEq]; rintro rfl; exact latZ_mem R z
            · simp
          · split
            · simp only [val.injEq]; rintro rfl; exact latXY_mem R x y z hR
            · simp

example (lon lat : ℝ) (h : xyz2lonlat (val 3) (val (8 / 10)) true (pt (-2, 2, 1)) = (val lon, val lat)) :
    (-180 ≤ lon ∧ lon ≤ 180) ∧ -90 ≤ lat ∧ lat ≤ 90 :=
  have hr := C03_range 3 (8 / 10) true (by norm_num) (pt (-2, 2, 1)) lon lat
  ⟨hr.1 (by rw [h]), hr.2 (by rw [h])⟩

/-! ## C04 -/

/-- **C04a**: the longitude is a number exactly off the polar axis. -/
theorem C04_lon_isNum_iff (R t : ℝ) (low : Bool) (p : ℝ × ℝ × ℝ) (hR : 0 < R) :
    IsNum (xyz2lonlat (val R) (val t) low (pt p)).1 ↔ Spec.axisDistSq p ≠ 0 := by
  obtain ⟨x, y, z⟩ := p
  simp only [pt, xyz2lonlat_val _ _ _ _ _ _ hR, lonFP, Spec.axisDistSq]
  split <;> simp_all

example : IsNum (xyz2lonlat (val 3) (val (8 / 10)) true (pt (-2, 2, 1))).1 ∧
    ¬ IsNum (xyz2lonlat (val 3) (val (8 / 10)) true (pt (0, 0, 3))).1 := by
  constructor
  · rw [C04_lon_isNum_iff _ _ _ _ (by norm_num)]
    norm_num [Spec.axisDistSq]
  · rw [C04_lon_isNum_iff _ _ _ _ (by norm_num)]
    norm_num [Spec.axisDistSq]

/-- **C04b**: the latitude is a number for every point of the closed ball. -/
theorem C04_lat_isNum (R t : ℝ) (low : Bool) (p : ℝ × ℝ × ℝ) (hR : 0 < R)
    (hball : Spec.normSq p ≤ R ^ 2) :
    IsNum (xyz2lonlat (val R) (val t) low (pt p)).2 := by
  obtain ⟨x, y, z⟩ := p
  simp only [pt, xyz2lonlat_val _ _ _ _ _ _ hR, latFP, Spec.normSq] at *
  have hrs := rho_sq x y
  have hrR : rho x y ≤ R := by
    apply le_of_sq_le_sq _ hR.le
    nlinarith [sq_nonneg z]
  have hzR : |z| ≤ R := by
    apply abs_le_of_sq_le_sq _ hR.le
    nlinarith [sq_nonneg (rho x y)]
  split <;> simp_all

example : IsNum (xyz2lonlat (val 3) (val (8 / 10)) true (pt (-1, 2, 1))).2 :=
  C04_lat_isNum _ _ _ _ (by norm_num) (by norm_num [Spec.normSq])

/-- A weighted sum of points. -/
def wsum {n : Nat} (w : Fin n → ℝ) (p : Fin n → ℝ × ℝ × ℝ) : ℝ × ℝ × ℝ :=
  (∑ i, w i * (p i).1, ∑ i, w i * (p i).2.1, ∑ i, w i * (p i).2.2)

private theorem wsum_normSq {n : Nat} {R : ℝ} (w : Fin n → ℝ) (p : Fin n → ℝ × ℝ × ℝ)
    (hw : ∀ i, 0 ≤ w i) (hs : ∑ i, w i = 1) (hp : ∀ i, Spec.normSq (p i) ≤ R ^ 2) :
    Spec.normSq (wsum w p) ≤ R ^ 2 := by
  have key : ∀ f : Fin n → ℝ, (∑ i, w i * f i) ^ 2 ≤ ∑ i, w i * f i ^ 2 := by
    intro f
    have h := (Even.convexOn_pow (𝕜 := ℝ) (n := 2) even_two).map_sum_le (t := Finset.univ) (w := w)
      (p := f) (fun i _ => hw i) hs (fun i _ => Set.mem_univ _)
    simpa [smul_eq_mul] using h
  have h1 := key (fun i => (p i).1)
  have h2 := key (fun i => (p i).2.1)
  have h3 := key (fun i => (p i).2.2)
  have h4 : ∑ i, w i * Spec.normSq (p i) ≤ ∑ i, w i * R ^ 2 :=
    Finset.sum_le_sum (fun i _ => mul_le_mul_of_nonneg_left (hp i) (hw i))
  rw [← Finset.sum_mul, hs, one_mul] at h4
  have h5 : ∑ i, w i * Spec.normSq (p i)
      = (∑ i, w i * (p i).1 ^ 2) + (∑ i, w i * (p i).2.1 ^ 2) + ∑ i, w i * (p i).2.2 ^ 2 := by
    rw [← Finset.sum_add_distrib, ← Finset.sum_add_distrib]
    refine Finset.sum_congr rfl fun i _ => ?_
    unfold Spec.normSq; ring
  simp only [Spec.normSq, wsum] at *
  linarith

private theorem spherePoint_normSq (R lon lat : ℝ) : Spec.normSq (Spec.spherePoint R lon lat) = R ^ 2 := by
  simp only [Spec.normSq, Spec.spherePoint]
  have a := sin_sq_add_cos_sq (Spec.rad lon)
  have b := sin_sq_add_cos_sq (Spec.rad lat)
  have c : cos (Spec.rad lon) ^ 2 = 1 - sin (Spec.rad lon) ^ 2 := by linarith
  have d : cos (Spec.rad lat) ^ 2 = 1 - sin (Spec.rad lat) ^ 2 := by linarith
  calc _ = R ^ 2 * (cos (Spec.rad lat) ^ 2 * (sin (Spec.rad lon) ^ 2 + cos (Spec.rad lon) ^ 2)
            + sin (Spec.rad lat) ^ 2) := by ring
    _ = R ^ 2 := by rw [a, d]; ring

/-- **C04c**: any convex combination of tie positions (what linear interpolation computes) has a numeric
latitude. -/
theorem C04_convex_lat_isNum {n : Nat} (R t : ℝ) (low : Bool) (hR : 0 < R)
    (w lon lat : Fin n → ℝ) (hw : ∀ i, 0 ≤ w i) (hs : ∑ i, w i = 1) :
    IsNum (xyz2lonlat (val R) (val t) low
      (pt (wsum w fun i => Spec.spherePoint R (lon i) (lat i)))).2 :=
  C04_lat_isNum R t low _ hR (wsum_normSq w _ hw hs fun i => (spherePoint_normSq R (lon i) (lat i)).le)

example : IsNum (xyz2lonlat (val 1) (val (4/5)) true
      (pt (wsum ![1/3, 2/3] fun i => Spec.spherePoint 1 (![10, 20] i) (![80, 85] i)))).2 :=
  C04_convex_lat_isNum 1 _ _ (by norm_num) ![1/3, 2/3] ![10, 20] ![80, 85]
    (by intro i; fin_cases i <;> norm_num) (by norm_num [Fin.sum_univ_two])

/-! ## C05 -/

/-- **C05a**: the longitude depends only on the direction of (x, y). -/
theorem C05_lon_scale (R t k : ℝ) (low : Bool) (x y z z' : ℝ) (hR : 0 < R) (hk : 0 < k) :
    (xyz2lonlat (val R) (val t) low (pt (k * x, k * y, z'))).1
      = (xyz2lonlat (val R) (val t) low (pt (x, y, z))).1 := by
  simp only [pt, xyz2lonlat_val _ _ _ _ _ _ hR]
  have hrho : rho (k * x) (k * y) = k * rho x y := by
    unfold rho
    rw [show k * x * (k * x) + k * y * (k * y) = k ^ 2 * (x * x + y * y) by ring,
      Real.sqrt_mul (by positivity), Real.sqrt_sq hk.le]
  unfold lonFP
  have hiff : (k * x) ^ 2 + (k * y) ^ 2 = 0 ↔ x ^ 2 + y ^ 2 = 0 := by
    rw [show (k * x) ^ 2 + (k * y) ^ 2 = k ^ 2 * (x ^ 2 + y ^ 2) by ring]
    simp [hk.ne']
  by_cases h : x ^ 2 + y ^ 2 = 0
  · rw [if_pos h, if_pos (hiff.mpr h)]
  · rw [if_neg h, if_neg (fun h' => h (hiff.mp h'))]
    unfold lonR
    rw [hrho, mul_div_mul_left _ _ hk.ne', sgn_mul_pos hk]

example : (xyz2lonlat (val 3) (val (8 / 10)) true (pt (1000 * -2, 1000 * 1, 7))).1
    = (xyz2lonlat (val 3) (val (8 / 10)) true (pt (-2, 1, 0))).1 :=
  C05_lon_scale _ _ _ _ _ _ _ _ (by norm_num) (by norm_num)

/-- which of the two latitude formulas is used -/
def usesZ (R t z : ℝ) (low : Bool) : Prop := low = true ∧ |z / R| < t

/-- **C05b**: for a point of the ball off the axis, the latitude has the sign of the geocentric latitude; the
z formula does not exceed it in magnitude, the xy formula does not fall below it. -/
theorem C05_lat_bracket (R t : ℝ) (low : Bool) (p : ℝ × ℝ × ℝ) (hR : 0 < R)
    (hball : Spec.normSq p ≤ R ^ 2) (haxis : Spec.axisDistSq p ≠ 0) :
    ∃ lat, (xyz2lonlat (val R) (val t) low (pt p)).2 = val lat ∧
      0 ≤ lat * Spec.geocentricLat p ∧
      (usesZ R t p.2.2 low → |lat| ≤ |Spec.geocentricLat p|) ∧
      (¬ usesZ R t p.2.2 low → p.2.2 ≠ 0 → |Spec.geocentricLat p| ≤ |lat|) := by
  obtain ⟨x, y, z⟩ := p
  simp only [Spec.normSq, Spec.axisDistSq] at hball haxis
  have hr : 0 < rho x y := (rho_pos_iff x y).mpr haxis
  have hrs := rho_sq x y
  have hrR : rho x y ≤ R := by
    apply le_of_sq_le_sq _ hR.le
    nlinarith [sq_nonneg z]
  have hzR : |z| ≤ R := by
    apply abs_le_of_sq_le_sq _ hR.le
    nlinarith [sq_nonneg (rho x y)]
  have hgeo : Spec.geocentricLat (x, y, z) = Spec.deg (arctan (z / rho x y)) := by
    simp only [Spec.geocentricLat, Spec.axisDistSq, rho]
    rw [show x ^ 2 + y ^ 2 = x * x + y * y by ring]
  have habs_arctan : |arctan (z / rho x y)| = arctan (|z| / rho x y) := by
    rcases le_or_gt 0 z with h | h
    · rw [abs_of_nonneg h, abs_of_nonneg]
      rw [← arctan_zero]; exact arctan_mono (by positivity)
    · rw [abs_of_neg h, abs_of_neg, neg_div, arctan_neg]
      rw [← arctan_zero]; exact arctan_strictMono (div_neg_of_neg_of_pos h hr)
  set g := arctan (|z| / rho x y) with hg
  have hg0 : 0 ≤ g := by rw [hg, ← arctan_zero]; exact arctan_mono (by positivity)
  have hg1 : g < π / 2 := arctan_lt_pi_div_two _
  have hcosg : cos g = 1 / Real.sqrt (1 + (|z| / rho x y) ^ 2) := cos_arctan _
  -- N = distance to the centre
  have hsq : Real.sqrt (1 + (|z| / rho x y) ^ 2) = Real.sqrt (x ^ 2 + y ^ 2 + z ^ 2) / rho x y := by
    rw [show 1 + (|z| / rho x y) ^ 2 = (x ^ 2 + y ^ 2 + z ^ 2) / rho x y ^ 2 by
      rw [div_pow, sq_abs, ← hrs]; field_simp]
    rw [Real.sqrt_div (by positivity), Real.sqrt_sq hr.le]
  set N := Real.sqrt (x ^ 2 + y ^ 2 + z ^ 2) with hN
  have hN0 : 0 < N := Real.sqrt_pos.mpr (by positivity)
  have hNR : N ≤ R := by rw [hN]; exact Real.sqrt_le_iff.mpr ⟨hR.le, hball⟩
  have hcos : cos g = rho x y / N := by rw [hcosg, hsq]; field_simp
  have hsin : sin g = |z| / N := by
    rw [hg, sin_arctan, hsq]; field_simp
  -- magnitude comparisons
  have hzlow : arcsin (|z| / R) ≤ g := by
    rw [arcsin_le_iff_le_sin' ⟨by linarith, hg1⟩, hsin]
    exact div_le_div_of_nonneg_left (abs_nonneg z) hN0 hNR
  have hxyup : g ≤ arccos (rho x y / R) := by
    have : arccos (cos g) = g := arccos_cos hg0 (by linarith [Real.pi_pos])
    rw [← this, hcos]
    exact arccos_le_arccos (div_le_div_of_nonneg_left hr.le hN0 hNR)
  have hlz0 : 0 ≤ arcsin (|z| / R) := arcsin_nonneg.mpr (by positivity)
  have habsZ : latZ R z = sgn z * Spec.deg (arcsin (|z| / R)) := by
    rw [latZ_eq]
    rcases lt_trichotomy z 0 with h | h | h
    · rw [sgn_neg h, abs_of_neg h, neg_div, arcsin_neg, deg_neg]; ring
    · subst h; simp [deg_zero]
    · rw [sgn_pos h, abs_of_pos h]; ring
  have hgeo' : Spec.geocentricLat (x, y, z) = sgn z * Spec.deg g := by
    rw [hgeo, hg]
    rcases lt_trichotomy z 0 with h | h | h
    · rw [sgn_neg h, abs_of_neg h, neg_div, arctan_neg, deg_neg]; ring
    · subst h; simp [deg_zero]
    · rw [sgn_pos h, abs_of_pos h]; ring
  have hdg : 0 ≤ Spec.deg g := by rw [← deg_zero]; exact deg_strictMono.monotone hg0
  have hd1 : 0 ≤ Spec.deg (arcsin (|z| / R)) := by
    rw [← deg_zero]; exact deg_strictMono.monotone hlz0
  have hd2 : 0 ≤ Spec.deg (arccos (rho x y / R)) := (deg_arccos_mem _).1
  have hm1 : Spec.deg (arcsin (|z| / R)) ≤ Spec.deg g := deg_strictMono.monotone hzlow
  have hm2 : Spec.deg g ≤ Spec.deg (arccos (rho x y / R)) := deg_strictMono.monotone hxyup
  simp only [pt, xyz2lonlat_val _ _ _ _ _ _ hR, latFP, usesZ]
  have hss : 0 ≤ sgn z * sgn z := mul_self_nonneg _
  by_cases hu : low = true ∧ |z / R| < t
  · refine ⟨latZ R z, by rw [if_pos hu, if_pos hzR], ?_, fun _ => ?_, fun h => absurd hu h⟩
    · rw [habsZ, hgeo']
      have := mul_nonneg hss (mul_nonneg hd1 hdg)
      nlinarith
    · rw [habsZ, hgeo', abs_mul, abs_mul, abs_of_nonneg hd1, abs_of_nonneg hdg]
      exact mul_le_mul_of_nonneg_left hm1 (abs_nonneg _)
  · refine ⟨latXY R x y z, by rw [if_neg hu, if_pos hrR], ?_, fun h => absurd h hu, fun _ _ => ?_⟩
    · rw [latXY_eq, hgeo']
      have := mul_nonneg hss (mul_nonneg hd2 hdg)
      nlinarith
    · rw [latXY_eq, hgeo', abs_mul, abs_mul, abs_of_nonneg hd2, abs_of_nonneg hdg]
      exact mul_le_mul_of_nonneg_left hm2 (abs_nonneg _)

example : ∃ lat, (xyz2lonlat (val 3) (val (4/5)) true (pt (-1, 2, 1))).2 = val lat ∧
      0 ≤ lat * Spec.geocentricLat (-1, 2, 1) ∧
      (usesZ 3 (4/5) 1 true → |lat| ≤ |Spec.geocentricLat (-1, 2, 1)|) ∧
      (¬ usesZ 3 (4/5) 1 true → (1:ℝ) ≠ 0 → |Spec.geocentricLat (-1, 2, 1)| ≤ |lat|) :=
  C05_lat_bracket 3 (4/5) true (-1, 2, 1) (by norm_num) (by norm_num [Spec.normSq])
    (by norm_num [Spec.axisDistSq])

/-! ## C06 -/

/-- **C06**: the numpy, Cython and VII conversions agree on every finite point. -/
theorem C06_copies_agree (R t : ℝ) (p : ℝ × ℝ × ℝ) (hR : 0 < R) :
    (∀ low, cyXyz2lonlat (val R) (val t) low (pt p) = xyz2lonlat (val R) (val t) low (pt p)) ∧
    viiXyz2lonlat (val R) (val t) (pt p) = xyz2lonlat (val R) (val t) true (pt p) := by
  obtain ⟨x, y, z⟩ := p
  exact ⟨fun low => by simp only [pt, xyz2lonlat_val _ _ _ _ _ _ hR, cyXyz2lonlat_val _ _ _ _ _ _ hR],
    by simp only [pt, xyz2lonlat_val _ _ _ _ _ _ hR, viiXyz2lonlat_val _ _ _ _ _ hR]⟩

example : viiXyz2lonlat (val 3) (val (8 / 10)) (pt (-2, 2, 1)) = xyz2lonlat (val 3) (val (8 / 10)) true (pt (-2, 2, 1)) ∧
    cyXyz2lonlat (val 3) (val (8 / 10)) false (pt (0, 0, 3)) = xyz2lonlat (val 3) (val (8 / 10)) false (pt (0, 0, 3)) :=
  ⟨(C06_copies_agree _ _ _ (by norm_num)).2, (C06_copies_agree _ _ _ (by norm_num)).1 _⟩

/-! ## C07 -/

/-- **C07 (partial)**: convex combinations of far-side positions are reported on the far side, provided the
combination is not exactly on the 180-degree meridian.  Missing: that last case, which is false
(`C07_negation`). -/
theorem C07_far_side_partial {n : Nat} (R t : ℝ) (low : Bool) (hR : 0 < R)
    (w lon lat : Fin n → ℝ) (hw : ∀ i, 0 ≤ w i) (hs : ∑ i, w i = 1)
    (hlon : ∀ i, 90 < |lon i| ∧ |lon i| ≤ 180) (hlat : ∀ i, |lat i| < 90)
    (hanti : ¬ Spec.onAntimeridian (wsum w fun i => Spec.spherePoint R (lon i) (lat i))) :
    ∃ L, (xyz2lonlat (val R) (val t) low
      (pt (wsum w fun i => Spec.spherePoint R (lon i) (lat i)))).1 = val L ∧ 90 < |L| := by
  set q := wsum w fun i => Spec.spherePoint R (lon i) (lat i) with hq
  -- x < 0
  have hx : q.1 < 0 := by
    have hterm : ∀ i, (Spec.spherePoint R (lon i) (lat i)).1 < 0 := by
      intro i
      obtain ⟨a, b⟩ := rad_bounds (abs_lt.mp (hlat i)).1 (abs_lt.mp (hlat i)).2
      have hc := cos_pos_of_mem_Ioo ⟨a, b⟩
      have hneg : cos (Spec.rad (lon i)) < 0 := by
        rw [← cos_abs]
        have hpi := Real.pi_pos
        have e : |Spec.rad (lon i)| = |lon i| * (π / 180) := by
          unfold Spec.rad; rw [abs_mul, abs_of_pos (show 0 < π / 180 by positivity)]
        apply cos_neg_of_pi_div_two_lt_of_lt
        · rw [e]; nlinarith [(hlon i).1]
        · rw [e]; nlinarith [(hlon i).2]
      simp only [Spec.spherePoint]
      exact mul_neg_of_pos_of_neg (mul_pos hR hc) hneg
    have hexists : ∃ i, 0 < w i := by
      by_contra hcon
      push Not at hcon
      have : ∑ i, w i ≤ 0 := Finset.sum_nonpos fun i _ => hcon i
      linarith
    obtain ⟨i0, hi0⟩ := hexists
    show ∑ i, w i * (Spec.spherePoint R (lon i) (lat i)).1 < 0
    calc _ < ∑ i : Fin n, (0:ℝ) := Finset.sum_lt_sum
          (fun i _ => mul_nonpos_of_nonneg_of_nonpos (hw i) (hterm i).le)
          ⟨i0, Finset.mem_univ _, mul_neg_of_pos_of_neg hi0 (hterm i0)⟩
      _ = 0 := by simp
  have hy : q.2.1 ≠ 0 := fun h => hanti ⟨h, hx⟩
  obtain ⟨x, y, z⟩ := q
  simp only at hx hy
  have hr : 0 < rho x y := lt_of_lt_of_le (abs_pos.mpr hx.ne) (abs_le_rho x y)
  refine ⟨lonR x y, by simp only [pt, xyz2lonlat_val _ _ _ _ _ _ hR, lonFP_of_ne hr], ?_⟩
  have hc : x / rho x y < 0 := div_neg_of_neg_of_pos hx hr
  have h90 : 90 < Spec.deg (arccos (x / rho x y)) := by
    rw [← deg_pi_div_two]
    apply deg_strictMono
    have := arcsin_lt_zero.mpr hc
    rw [arccos]; linarith
  unfold lonR
  rw [abs_mul]
  have h1 : |sgn y| = 1 := by
    rcases lt_or_gt_of_ne hy with h | h
    · simp [sgn_neg h]
    · simp [sgn_pos h]
  rw [h1, mul_one, abs_of_pos (by linarith)]
  exact h90

/-- **C07, negation**: the pixel half way between longitudes 179 and -179 on the equator is reported at
longitude 0 (for every radius and threshold). -/
theorem C07_negation (R t : ℝ) (low : Bool) (hR : 0 < R) :
    (xyz2lonlat (val R) (val t) low
      (pt (wsum ![1/2, 1/2] fun i => Spec.spherePoint R (![179, -179] i) (![0, 0] i)))).1 = val 0 := by
  have hcos : cos (Spec.rad 179) < 0 := by
    have hpi := Real.pi_pos
    apply cos_neg_of_pi_div_two_lt_of_lt <;> unfold Spec.rad <;> nlinarith
  have hneg : Spec.rad (-179) = - Spec.rad 179 := by unfold Spec.rad; ring
  have e : wsum ![1/2, 1/2] (fun i => Spec.spherePoint R (![179, -179] i) (![0, 0] i))
      = (R * cos (Spec.rad 179), 0, 0) := by
    simp only [wsum, Spec.spherePoint, Fin.sum_univ_two]
    have h0 : Spec.rad 0 = 0 := by simp [Spec.rad]
    simp [hneg, h0]
    ring
  rw [e]
  simp only [pt, xyz2lonlat_val _ _ _ _ _ _ hR]
  have hx : R * cos (Spec.rad 179) < 0 := mul_neg_of_pos_of_neg hR hcos
  rw [lonFP_of_ne (lt_of_lt_of_le (abs_pos.mpr hx.ne) (abs_le_rho _ _))]
  simp [lonR]

example : ∃ L, (xyz2lonlat (val 1) (val (4/5)) true
      (pt (wsum ![1/4, 3/4] fun i => Spec.spherePoint 1 (![179, -179] i) (![0, 0] i)))).1 = val L ∧
      90 < |L| := by
  refine C07_far_side_partial 1 (4/5) true (by norm_num) ![1/4, 3/4] ![179, -179] ![0, 0] ?_ ?_ ?_ ?_ ?_
  · intro i; fin_cases i <;> norm_num
  · norm_num [Fin.sum_univ_two]
  · intro i; fin_cases i <;> norm_num [abs_of_pos]
  · intro i; fin_cases i <;> norm_num
  · rintro ⟨h, _⟩
    have hneg : Spec.rad (-179) = - Spec.rad 179 := by unfold Spec.rad; ring
    have h0 : Spec.rad 0 = 0 := by simp [Spec.rad]
    have hsin : 0 < sin (Spec.rad 179) := by
      have hpi := Real.pi_pos
      apply sin_pos_of_pos_of_lt_pi <;> unfold Spec.rad <;> nlinarith
    simp [wsum, Spec.spherePoint, Fin.sum_univ_two, hneg, h0] at h
    linarith

end Verif.Props
