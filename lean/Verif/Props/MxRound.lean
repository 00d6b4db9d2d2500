import Verif.Props.FlRound
import Verif.Props.MxGeo
import Verif.Props.MxModis

/-!
# C65, C66: the Cython round trip in mixed precision, and the MODIS interpolation at the tie points

`Mx q`: float32 arrays, computation with doubles.
-/

namespace Verif.Props
open Verif Mx Verif.Geo Verif.Modis Verif.Err
variable {q : Mixed} {ε : ℝ}

theorem thrOk_mx (hp : 12 ≤ q.s.p) : ThrOk (thrS q) := by
  have h1 := abs_le.1 (q.d.abs_rnd_sub_le_u (8 / 10))
  have h2 := abs_le.1 (q.s.abs_rnd_sub_le_u (q.d.rnd (8 / 10)))
  have hu := Fl.u_le_12 (hd12 hp)
  have hu' := Fl.u_le_12 hp
  have hu0 := q.s.u_pos
  rw [abs_of_pos (by norm_num : (0 : ℝ) < 8 / 10)] at h1
  rw [abs_of_pos (q.d.rnd_pos (by norm_num : (0 : ℝ) < 8 / 10))] at h2
  have h3 : 0.799 ≤ q.d.rnd (8 / 10) := by linarith [h1.1]
  have h4 : q.d.rnd (8 / 10) ≤ 0.801 := by linarith [h1.2]
  have h5 : q.s.u * q.d.rnd (8 / 10) ≤ 1 / 4096 * 0.801 := mul_le_mul hu' h4 (by linarith) (by norm_num)
  unfold thrS
  constructor
  · linarith [h2.1]
  · linarith [h2.2]

/-- the cartesian coordinates as the code computes them -/
theorem cyLonlat2xyz_mx (lon lat : ℝ) :
    let F := radFactor q
    let lam := q.s.rnd (q.d.rnd (lon * F))
    let phi := q.s.rnd (q.d.rnd (lat * F))
    let R := q.d.rnd (((63709970 : Nat) : ℝ) / (10 : ℝ) ^ 1)
    let P := q.d.rnd (R * q.d.cos phi)
    cyLonlat2xyz earthRadius (sgl lon : Mx q) (sgl lat)
      = sglpt q (q.s.rnd (q.d.rnd (P * q.d.cos lam)), q.s.rnd (q.d.rnd (P * q.d.sin lam)), q.s.rnd (q.d.rnd (R * q.d.sin phi))) := by
  intro F lam phi R P
  have eR : (earthRadius : Mx q) = dbl R := rfl
  simp only [cyLonlat2xyz, cyDeg2rad_mx, eR, cos_sgl, sin_sgl, dd_mul, toFloating_dbl, sglpt]
  rfl

private theorem le_sqrt_64 (h0 : 0 < ε) (hε : ε ≤ 1 / 4096) : ε ≤ √ε / 64 := by
  have hs0 := Real.sqrt_nonneg ε
  have hs2 : √ε * √ε = ε := Real.mul_self_sqrt h0.le
  have hs : √ε ≤ 1 / 64 := by
    rw [Real.sqrt_le_left (by norm_num)]; linarith
  nlinarith

private theorem rnd_shift (r : Rounding) {x c m e : ℝ} (hm : |x| ≤ m) (h : |x - c| ≤ e) : |r.rnd x - c| ≤ m * r.u + e := by
  have h1 : |r.rnd x - x| ≤ m * r.u := (r.abs_rnd_sub_le_u x).trans (by
    rw [mul_comm]; exact mul_le_mul_of_nonneg_right hm r.u_pos.le)
  calc |r.rnd x - c| = |(r.rnd x - x) + (x - c)| := by ring_nf
    _ ≤ _ := abs_add_le _ _
    _ ≤ _ := add_le_add h1 h

/-- **C65 (mixed precision)**: the round trip of the Cython code, float32 longitudes and latitudes, double computation
(`ε`: relative error of the double roundings and library functions, `u`: of the float32 rounding): the latitude comes
back within `400 u + 2000 ε` degrees, and off the poles the longitude within `470 u + 290 sqrt ε` degrees on the circle: for
IEEE formats about 0.00003 degrees, 3 m.  -/
theorem C65_roundtrip_mixed (hp : 12 ≤ q.s.p) (h : LibRel q.d ε) (hε : ε ≤ 1 / 4096) {lon lat : ℝ} (hlon : |lon| ≤ 180)
    (hlat : |lat| ≤ 90) :
    let res := cyXyz2lonlat earthRadius cyThr true (cyLonlat2xyz earthRadius (sgl lon : Mx q) (sgl lat))
    (|lat| ≤ 90 * (1 - 2 * q.s.u - 4 * ε) → ∃ L, Rep q.s.p L ∧ res.1 = sgl L ∧
      Spec.LonWithin (470 * q.s.u + 290 * √ε) L lon) ∧
    (∃ B, Rep q.s.p B ∧ res.2 = sgl B ∧ |B - lat| ≤ 400 * q.s.u + 2000 * ε) := by
  intro res
  have h0 := h.pos
  have hu0 := q.s.u_pos
  have hu := Fl.u_le_12 hp
  have hp8 : 8 ≤ q.d.p := by have := hd12 hp; omega
  have hue : q.s.u * ε ≤ q.s.u * (1 / 4096) := mul_le_mul_of_nonneg_left hε hu0.le
  have hee : ε * ε ≤ ε * (1 / 4096) := mul_le_mul_of_nonneg_left hε h0.le
  have hF : radFactor q = q.d.rnd (q.d.rnd Real.pi / 180) := by unfold radFactor; rw [rnd_180 hp]
  have hres : res = cyXyz2lonlat earthRadius cyThr true (cyLonlat2xyz earthRadius (sgl lon : Mx q) (sgl lat)) := rfl
  rw [cyLonlat2xyz_mx, hF, cy_code_mx] at hres
  -- the angles
  have hδ : q.s.u + 3.02 * ε + q.s.u * (3.02 * ε) ≤ 1.001 * q.s.u + 3.02 * ε := by linarith
  have hd1 := ((rad_rel h hε lon).rnd (r := q.s) le_rfl).mono hδ
  have hd2 := ((rad_rel h hε lat).rnd (r := q.s) le_rfl).mono hδ
  have hlr := q.s.rep (q.d.rnd (lon * q.d.rnd (q.d.rnd Real.pi / 180)))
  obtain ⟨lam, elam⟩ : ∃ lam, lam = q.s.rnd (q.d.rnd (lon * q.d.rnd (q.d.rnd Real.pi / 180))) := ⟨_, rfl⟩
  obtain ⟨phi, ephi⟩ : ∃ phi, phi = q.s.rnd (q.d.rnd (lat * q.d.rnd (q.d.rnd Real.pi / 180))) := ⟨_, rfl⟩
  obtain ⟨R, eR⟩ : ∃ R, R = q.d.rnd (((63709970 : Nat) : ℝ) / (10 : ℝ) ^ 1) := ⟨_, rfl⟩
  have hR : 0 < R := eR ▸ q.d.rnd_pos (by norm_num)
  have eR' : (earthRadius : Fl q.d) = Fl.val R := by rw [eR]; rfl
  rw [← elam] at hd1 hlr hres
  rw [← ephi] at hd2 hres
  rw [← eR, eR'] at hres
  -- the coordinates
  have hτ : q.s.u + 2.01 * ε + q.s.u * (2.01 * ε) ≤ 1.001 * q.s.u + 2.01 * ε := by linarith
  have hP := prod_rel h hε R (h.cos phi)
  have hz := ((prod_rel h hε R (h.sin phi)).rnd (r := q.s) le_rfl).mono hτ
  obtain ⟨P, eP⟩ : ∃ P, P = q.d.rnd (R * q.d.cos phi) := ⟨_, rfl⟩
  rw [← eP] at hP hres
  have hx := ((prod_rel h hε P (h.cos lam)).rnd (r := q.s) le_rfl).mono hτ
  have hy := ((prod_rel h hε P (h.sin lam)).rnd (r := q.s) le_rfl).mono hτ
  have hxr := rep_d (q := q) (q.s.rep (q.d.rnd (P * q.d.cos lam)))
  obtain ⟨x, ex⟩ : ∃ x, x = q.s.rnd (q.d.rnd (P * q.d.cos lam)) := ⟨_, rfl⟩
  obtain ⟨y, ey⟩ : ∃ y, y = q.s.rnd (q.d.rnd (P * q.d.sin lam)) := ⟨_, rfl⟩
  obtain ⟨z, ez⟩ : ∃ z, z = q.s.rnd (q.d.rnd (R * q.d.sin phi)) := ⟨_, rfl⟩
  rw [← ex] at hx hxr hres
  rw [← ey] at hy hres
  rw [← ez] at hz hres
  obtain ⟨g1, g2, g3⟩ := lat_core hR hlat hd2 (by positivity) (by positivity) (by positivity) hP hx hy hz
  have hη : (1.001 * q.s.u + 2.01 * ε) + 2.01 * ε + (1.001 * q.s.u + 2.01 * ε) * (2.01 * ε) + 1.58 * (1.001 * q.s.u + 3.02 * ε)
      ≤ 2.6 * q.s.u + 8.81 * ε := by ring_nf; linarith
  obtain ⟨-, b2, -⟩ := lat_near hp8 h hε hR (thrOk_mx hp) (η := 2.6 * q.s.u + 8.81 * ε) (by linarith) g1 (g2.trans hη)
    (g3.trans hη)
  rw [deg_rad] at b2
  obtain ⟨B, hB1, hB2, hB3⟩ := b2 (rep_d (q.s.rep _))
  constructor
  · intro hl
    have hc : 0 < Real.cos phi := cos_pos_core hd2 (by nlinarith [abs_nonneg lat])
    have hPpos : 0 < P := pos_of_rel hP (by linarith) (mul_pos hR hc)
    obtain ⟨L, l1, l2, l3, k, hk, hk'⟩ := lon_core hp8 h hε hlon hlr hd1 (by positivity) (by linarith) hPpos hx hy
      (by positivity) (by linarith) hxr
    refine ⟨q.s.rnd L, q.s.rep _, ?_, k, hk, ?_⟩
    · rw [hres]
      show out (cyXyz2lonlat (Fl.val R) (Fl.val (thrS q)) true (Fl.val x, Fl.val y, Fl.val z)).1 = _
      simp only [cyXyz2lonlat, Fl.toFloating_eq, Fl.toDouble_eq, FlGeo.hyp_val, csign_val]
      rw [l2]; rfl
    · have h1 := rnd_shift q.s l3 ((congrArg abs (sub_sub L lon (360 * (k : ℝ)))).symm.trans_le hk')
      rw [← sub_sub] at h1
      have h4 := le_sqrt_64 h0 hε
      linarith
  · refine ⟨q.s.rnd B, q.s.rep _, ?_, ?_⟩
    · rw [hres]
      show out (cyXyz2lonlat (Fl.val R) (Fl.val (thrS q)) true (Fl.val x, Fl.val y, Fl.val z)).2 = _
      rw [hB2]; rfl
    · have hBb : |B| ≤ 92 := by
        calc |B| = |(B - lat) + lat| := by ring_nf
          _ ≤ _ := abs_add_le _ _
          _ ≤ 92 := by linarith
      have h1 := rnd_shift q.s hBb hB3
      linarith

/-- **C66**: MODIS geolocation from 5 km to 1 km, as the code runs it (float32 arrays, doubles inside): every fine pixel at
the position of a tie point gets that tie point's position, within `470 u + 290 sqrt ε` degrees of longitude (on the circle)
and `400 u + 2000 ε` degrees of latitude, if the tie points of the cell are valid (longitude in [-180, 180], latitude in
[-90, 90], off the poles for the longitude; zenith angles of at most 70 degrees, not both 0). -/
theorem C66_modis_5km_ties (hp : 12 ≤ q.s.p) (hl : Fl.LibAcc q.d) (h : LibRel q.d ε) (hε : ε ≤ 1 / 4096) (n w : Nat)
    (hw : w = 270 ∨ w = 271) (lon lat satz : Nat → Nat → ℝ) (junk : Nat → Nat → Nat → Nat → Mx q) :
    ∃ out, modis5kmTo1km ⟨n * 2, w, fun a b => sgl (lon a b)⟩ ⟨n * 2, w, fun a b => sgl (lat a b)⟩
        ⟨n * 2, w, fun a b => sgl (satz a b)⟩ junk = .ok out ∧
      ∀ i j, i < n * 2 → j < w →
        (∀ a b, (a = i / 2 * 2 ∨ a = i / 2 * 2 + 1) → (b = min j (w - 2) ∨ b = min j (w - 2) + 1) →
          Rep q.s.p (lon a b) ∧ Rep q.s.p (lat a b) ∧ |lon a b| ≤ 180 ∧ |lat a b| ≤ 90 ∧ |satz a b| ≤ 70) →
        ¬ (satz (i / 2 * 2) (min j (w - 2)) = 0 ∧ satz (i / 2 * 2) (min j (w - 2) + 1) = 0) →
        (|lat i j| ≤ 90 * (1 - 2 * q.s.u - 4 * ε) → ∃ L, out.1.cell (5 * i + 2) (5 * j + 2) = sgl L ∧
          Spec.LonWithin (470 * q.s.u + 290 * √ε) L (lon i j)) ∧
        (∃ B, out.2.cell (5 * i + 2) (5 * j + 2) = sgl B ∧ |B - lat i j| ≤ 400 * q.s.u + 2000 * ε) := by
  obtain ⟨out, e, key⟩ := C60_modis_5km_mixed (q := q) (by omega) n w hw (fun a b => sgl (lon a b)) (fun a b => sgl (lat a b))
    (fun a b => sgl (satz a b)) junk
  refine ⟨out, e, fun i j hi hj hv hz => ?_⟩
  have ri : i = i / 2 * 2 ∨ i = i / 2 * 2 + 1 := by omega
  have rj : j = min j (w - 2) ∨ j = min j (w - 2) + 1 := by omega
  obtain ⟨-, -, h1, h2, -⟩ := hv i j ri rj
  have hs1 := (hv (i / 2 * 2) (min j (w - 2)) (Or.inl rfl) (Or.inl rfl)).2.2.2.2
  have hs2 := (hv (i / 2 * 2) (min j (w - 2) + 1) (Or.inl rfl) (Or.inr rfl)).2.2.2.2
  have hc := C62_coefficients_mixed hp hl 5 (by norm_num) _ _ hs1 hs2
  have heq := key i j hi hj (fun a b ha hb => ⟨⟨_, (hv a b ha hb).1, rfl⟩, ⟨_, (hv a b ha hb).2.1, rfl⟩⟩)
    ⟨hc.1.2 hz, hc.2.2 hz⟩
  obtain ⟨r1, r2⟩ := C65_roundtrip_mixed hp h hε h1 h2
  rw [← heq] at r1 r2
  refine ⟨fun hlat => ?_, ?_⟩
  · obtain ⟨L, -, e1, e2⟩ := r1 hlat
    exact ⟨L, e1, e2⟩
  · obtain ⟨B, -, e1, e2⟩ := r2
    exact ⟨B, e1, e2⟩

private theorem u53 : Mixed.ieee.d.u = 1 / 2 ^ 53 := by
  show (2 : ℝ) ^ (-((53 : ℕ) : ℤ)) = _
  rw [zpow_neg, zpow_natCast]; norm_num
private theorem u24 : Mixed.ieee.s.u = 1 / 2 ^ 24 := by
  show (2 : ℝ) ^ (-((24 : ℕ) : ℤ)) = _
  rw [zpow_neg, zpow_natCast]; norm_num

/-- float32 and double: 0.00004 degrees -/
theorem ieee_lon_bound : 470 * Mixed.ieee.s.u + 290 * √Mixed.ieee.d.u ≤ 0.00004 := by
  have : √Mixed.ieee.d.u ≤ 1.2 / 10 ^ 8 := by
    rw [u53, Real.sqrt_le_left (by norm_num)]; norm_num
  rw [u24]; linarith

theorem ieee_lat_bound : 400 * Mixed.ieee.s.u + 2000 * Mixed.ieee.d.u ≤ 0.00003 := by
  rw [u24, u53]; norm_num

example : ∃ L, (cyXyz2lonlat earthRadius cyThr true (cyLonlat2xyz earthRadius (sgl 12.5 : Mx Mixed.ieee) (sgl (-60)))).1 = sgl L ∧
    Spec.LonWithin 0.00004 L 12.5 := by
  obtain ⟨h, -⟩ := C65_roundtrip_mixed (q := Mixed.ieee) (by show 12 ≤ 24; norm_num) (libRel_correct 53 (by norm_num))
    (by show Mixed.ieee.d.u ≤ _; rw [u53]; norm_num) (lon := 12.5) (lat := -60) (by norm_num [abs_le]) (by norm_num [abs_le])
  obtain ⟨L, -, h1, k, h2, h3⟩ := h (by
    show |(-60 : ℝ)| ≤ 90 * (1 - 2 * Mixed.ieee.s.u - 4 * Mixed.ieee.d.u)
    rw [u24, u53]; norm_num [abs_le])
  exact ⟨L, h1, k, h2, (h3.trans ieee_lon_bound).trans (by norm_num)⟩

/-- a field across the antimeridian: the tie at 180 degrees -/
example (junk : Nat → Nat → Nat → Nat → Mx Mixed.ieee) :
    ∃ out, modis5kmTo1km ⟨1 * 2, 271, fun _ j => sgl ((j : ℝ) - 90)⟩ ⟨1 * 2, 271, fun i _ => sgl (50 + (i : ℝ))⟩
        ⟨1 * 2, 271, fun _ _ => sgl 30⟩ junk = .ok out ∧
      (∃ L, out.1.cell 7 1352 = sgl L ∧ Spec.LonWithin 0.00004 L 180) ∧ ∃ B, out.2.cell 7 1352 = sgl B ∧ |B - 51| ≤ 0.00003 := by
  obtain ⟨out, h1, h2⟩ := C66_modis_5km_ties (q := Mixed.ieee) (by show 12 ≤ 24; norm_num) (Fl.libAcc_correct 53 (by norm_num))
    (libRel_correct 53 (by norm_num)) (by show Mixed.ieee.d.u ≤ _; rw [u53]; norm_num) 1 271 (Or.inr rfl)
    (fun _ j => (j : ℝ) - 90) (fun i _ => 50 + (i : ℝ)) (fun _ _ => 30) junk
  have hrep : ∀ n : ℤ, |n| ≤ 2 ^ 24 → Rep Mixed.ieee.s.p (n : ℝ) := fun n hn => rep_int (p := 24) (by norm_num) hn
  obtain ⟨k1, B, k2, k3⟩ := h2 1 270 (by norm_num) (by norm_num) (by
    intro a b ha hb
    have hb' : b = 269 ∨ b = 270 := by omega
    have ha' : a = 0 ∨ a = 1 := by omega
    refine ⟨?_, ?_, ?_, ?_, by norm_num [abs_le]⟩
    · rcases hb' with rfl | rfl
      · have := hrep 179 (by norm_num); norm_num; exact_mod_cast this
      · have := hrep 180 (by norm_num); norm_num; exact_mod_cast this
    · rcases ha' with rfl | rfl
      · have := hrep 50 (by norm_num); norm_num; exact_mod_cast this
      · have := hrep 51 (by norm_num); norm_num; exact_mod_cast this
    · rcases hb' with rfl | rfl <;> norm_num [abs_le]
    · rcases ha' with rfl | rfl <;> norm_num [abs_le]) (by norm_num)
  obtain ⟨L, l1, k, l2, l3⟩ := k1 (by
    show |50 + ((1 : ℕ) : ℝ)| ≤ 90 * (1 - 2 * Mixed.ieee.s.u - 4 * Mixed.ieee.d.u)
    rw [u24, u53]; norm_num [abs_le])
  refine ⟨out, h1, ⟨L, l1, k, l2, ?_⟩, B, k2, ?_⟩
  · refine le_trans ?_ (l3.trans ieee_lon_bound)
    norm_num
  · refine le_trans ?_ (k3.trans ieee_lat_bound)
    norm_num

end Verif.Props
