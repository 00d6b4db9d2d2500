import Verif.Proofs.FlRound
import Verif.Props.FlGeo

/-!
# C64, C65: accuracy of the back conversion and of the round trip in floating point arithmetic

`Fl r`: binary floating point numbers of `r.p` bits, every operation rounded to nearest.  `LibRel r ε`: roundings and
library functions have relative error at most `ε` (about `1.2e-16` for doubles, `1e-7` for float32).
-/

namespace Verif.Props
open Verif Fl Verif.Geo Verif.FlGeo Verif.Err

variable {r : Rounding} {ε : ℝ}

/-- `C64_back_error`, with a bound of the reported longitude -/
theorem back_error (hp : 8 ≤ r.p) (h : LibRel r ε) (hε : ε ≤ 1 / 4096) {R t lon lat eta : ℝ} {p : ℝ × ℝ × ℝ}
    (hR : 0 < R) (ht : ThrOk t) (htr : Rep r.p t) (hlon : |lon| ≤ 180) (hlat : |lat| < 90) (heta : eta ≤ 1 / 100)
    (hrep : RepPt r p) (hnear : Spec.NearSphere R eta lon lat p) :
    ∀ res ∈ [xyz2lonlat (val R) (val t) true (flpt r p), cyXyz2lonlat (val R) (val t) true (flpt r p),
        viiXyz2lonlat (val R) (val t) (flpt r p)],
      (∃ L, Rep r.p L ∧ |L| ≤ 185 ∧ res.1 = val L ∧ (¬ Spec.onAntimeridian p → Spec.LonWithin (270 * √ε + 98 * eta) L lon) ∧
        (Spec.onAntimeridian p → L = 0)) ∧
      (∃ B, Rep r.p B ∧ res.2 = val B ∧ |B - lat| ≤ 115 * eta + 950 * ε) := by
  obtain ⟨x, y, z⟩ := p
  obtain ⟨hpl, hz⟩ := hnear
  simp only [Spec.spherePoint] at hpl hz
  have hpi := Real.pi_pos
  have hlr : |Spec.rad lat| < Real.pi / 2 := by
    rw [abs_rad, mul_div_assoc', div_lt_iff₀ (by norm_num)]; nlinarith
  have hcos : 0 < Real.cos (Spec.rad lat) := Real.cos_pos_of_mem_Ioo (abs_lt.1 hlr)
  have heta0 : 0 ≤ eta := by
    have := (abs_nonneg _).trans hz
    exact nonneg_of_mul_nonneg_left this hR
  have hC : 0 < R * Real.cos (Spec.rad lat) := mul_pos hR hcos
  obtain ⟨C, eC⟩ : ∃ C, C = R * Real.cos (Spec.rad lat) := ⟨_, rfl⟩
  rw [← eC] at hpl hC
  -- the distance from the axis
  have hcs := Real.sin_sq_add_cos_sq (Spec.rad lon)
  obtain ⟨a, ea⟩ : ∃ a, a = x - C * Real.cos (Spec.rad lon) := ⟨_, rfl⟩
  obtain ⟨b, eb⟩ : ∃ b, b = y - C * Real.sin (Spec.rad lon) := ⟨_, rfl⟩
  rw [← ea, ← eb] at hpl
  have hH0 := Real.sqrt_nonneg (x ^ 2 + y ^ 2)
  have hH2 : √(x ^ 2 + y ^ 2) ^ 2 = x ^ 2 + y ^ 2 := Real.sq_sqrt (by positivity)
  obtain ⟨H, eH⟩ : ∃ H, H = √(x ^ 2 + y ^ 2) := ⟨_, rfl⟩
  rw [← eH] at hH0 hH2
  have hhyp : |H - C| ≤ eta * C := by
    obtain ⟨w, ew⟩ : ∃ w, w = a * Real.cos (Spec.rad lon) + b * Real.sin (Spec.rad lon) := ⟨_, rfl⟩
    have hw2 : w ^ 2 ≤ a ^ 2 + b ^ 2 := by
      have : w ^ 2 + (a * Real.sin (Spec.rad lon) - b * Real.cos (Spec.rad lon)) ^ 2 = a ^ 2 + b ^ 2 := by
        rw [ew]; linear_combination (a ^ 2 + b ^ 2) * hcs
      linarith [sq_nonneg (a * Real.sin (Spec.rad lon) - b * Real.cos (Spec.rad lon))]
    have e : H ^ 2 = C ^ 2 + 2 * C * w + (a ^ 2 + b ^ 2) := by
      rw [hH2, ew, ea, eb]; linear_combination C ^ 2 * hcs
    have hηC : 0 ≤ eta * C := by positivity
    have hwm : |w| ≤ eta * C := abs_le_of_sq_le_sq (by linarith) hηC
    have hw' := abs_le.1 hwm
    have h1 : H ≤ C + eta * C := by
      refine le_of_sq_le_sq ?_ (by linarith)
      rw [e]; nlinarith [mul_le_mul_of_nonneg_left hw'.2 hC.le]
    have h2 : C - eta * C ≤ H := by
      have h3 : (C + w) ^ 2 ≤ H ^ 2 := by rw [e]; linarith [add_sq C w]
      have := le_of_sq_le_sq h3 hH0
      linarith [hw'.1]
    exact abs_le.2 ⟨by linarith, by linarith⟩
  have hxy : ¬ Spec.onAntimeridian (x, y, z) → y ≠ 0 ∨ 0 < x := by
    intro ham
    by_cases hy : y = 0
    · right
      by_contra hx
      rcases (not_lt.1 hx).lt_or_eq with h1 | h1
      · exact ham ⟨hy, h1⟩
      · rw [hy, h1] at hH2
        have h0 : H = 0 := by
          have : H ^ 2 = 0 := by rw [hH2]; norm_num
          exact pow_eq_zero_iff two_ne_zero |>.1 this
        rw [h0] at hhyp
        have := (abs_le.1 hhyp).1
        nlinarith
    · exact Or.inl hy
  have hlonr : |Spec.rad lon| ≤ 3 * Real.pi / 2 := by
    rw [abs_rad, mul_div_assoc', div_le_iff₀ (by norm_num)]; nlinarith
  rw [ea, eb] at hpl
  obtain ⟨L, l1, l0, l2, l3⟩ : ∃ L, Rep r.p L ∧ |L| ≤ 185 ∧
      rad2deg (Trig.acos ((val x : Fl r) / val (hyp r x y))) * val (if 0 < y then 1 else if y < 0 then -1 else 0) = val L ∧
      (¬ Spec.onAntimeridian (x, y, z) → Spec.LonWithin (270 * √ε + 98 * eta) L lon) ∧
      (Spec.onAntimeridian (x, y, z) → L = 0) := by
    by_cases ham : Spec.onAntimeridian (x, y, z)
    · obtain ⟨hy, hx⟩ := ham
      simp only at hy hx
      have hnum := lon_num (r := r) hrep.1 1 (y := y) (by rintro ⟨e, -⟩; exact hx.ne e)
      obtain ⟨a, -, ha⟩ := hnum
      refine ⟨0, rep_zero, by norm_num, ?_, fun hc => absurd ⟨hy, hx⟩ hc, fun _ => rfl⟩
      rw [if_neg (by rw [hy]; exact lt_irrefl 0), if_neg (by rw [hy]; exact lt_irrefl 0)]
      cases hq : rad2deg (Trig.acos ((val x : Fl r) / val (hyp r x y))) with
      | val q => rw [val_mul, mul_zero, r.rnd_zero]
      | bad => rw [hq] at ha; cases ha
    · obtain ⟨L, l1, l2, l0, l3⟩ := lon_near hp h hε hrep.1 (hxy ham) hC heta0 (by linarith) hlonr hpl
      rw [deg_rad] at l3
      exact ⟨L, l1, l0, l2, fun _ => l3, fun hc => absurd hc ham⟩
  have hz' : |z / R - Real.sin (Spec.rad lat)| ≤ eta := by
    have e : z / R - Real.sin (Spec.rad lat) = (z - R * Real.sin (Spec.rad lat)) / R := by field_simp
    rw [e, abs_div, abs_of_pos hR, div_le_iff₀ hR]
    exact hz
  have hh' : |√(x ^ 2 + y ^ 2) / R - Real.cos (Spec.rad lat)| ≤ eta := by
    have e : √(x ^ 2 + y ^ 2) / R - Real.cos (Spec.rad lat) = (H - C) / R := by rw [← eH, eC]; field_simp
    rw [e, abs_div, abs_of_pos hR, div_le_iff₀ hR]
    refine hhyp.trans (mul_le_mul_of_nonneg_left ?_ heta0)
    rw [eC]
    nlinarith [Real.cos_le_one (Spec.rad lat)]
  obtain ⟨b1, b2, b3⟩ := lat_near hp h hε hR ht heta hlr.le hz' hh'
  rw [deg_rad] at b1 b2 b3
  intro res hres
  simp only [List.mem_cons, List.not_mem_nil, or_false] at hres
  rcases hres with rfl | rfl | rfl
  · refine ⟨⟨L, l1, l0, ?_, l3⟩, b1⟩
    simp only [xyz2lonlat, flpt, hyp_val, asign_val]
    exact l2
  · refine ⟨⟨L, l1, l0, ?_, l3⟩, b2 htr⟩
    simp only [cyXyz2lonlat, toFloating_eq, toDouble_eq, flpt, hyp_val, csign_val]
    exact l2
  · refine ⟨⟨L, l1, l0, ?_, l3⟩, b3⟩
    simp only [viiXyz2lonlat, flpt, hyp_val, asign_val]
    exact l2

/-- **C64**: the back conversion of a point near the sphere, with rounding: a point that differs from the point of the
sphere at (`lon`, `lat`) by at most `eta` (relatively) gets a longitude within `270 sqrt ε + 98 eta` degrees of `lon` (on the
circle) and a latitude within `115 eta + 950 ε` degrees of `lat`.  All three copies; any radius; threshold in
[0.75, 0.85].  A point exactly on the 180-degree half plane (`y = 0`, `x < 0`) gets longitude 0 (see C01, C07). -/
theorem C64_back_error (hp : 8 ≤ r.p) (h : LibRel r ε) (hε : ε ≤ 1 / 4096) {R t lon lat eta : ℝ} {p : ℝ × ℝ × ℝ}
    (hR : 0 < R) (ht : ThrOk t) (htr : Rep r.p t) (hlon : |lon| ≤ 180) (hlat : |lat| < 90) (heta : eta ≤ 1 / 100)
    (hrep : RepPt r p) (hnear : Spec.NearSphere R eta lon lat p) :
    ∀ res ∈ [xyz2lonlat (val R) (val t) true (flpt r p), cyXyz2lonlat (val R) (val t) true (flpt r p),
        viiXyz2lonlat (val R) (val t) (flpt r p)],
      (∃ L, Rep r.p L ∧ res.1 = val L ∧ (¬ Spec.onAntimeridian p → Spec.LonWithin (270 * √ε + 98 * eta) L lon) ∧
        (Spec.onAntimeridian p → L = 0)) ∧
      (∃ B, Rep r.p B ∧ res.2 = val B ∧ |B - lat| ≤ 115 * eta + 950 * ε) := by
  intro res hres
  obtain ⟨⟨L, l1, -, l2⟩, hB⟩ := back_error hp h hε hR ht htr hlon hlat heta hrep hnear res hres
  exact ⟨⟨L, l1, l2⟩, hB⟩

/-- **C65**: position to point to position, with rounding: the latitude comes back within `2000 ε` degrees, and off the
poles (`|lat|` at most `90 (1 - 4 ε)`) the longitude within `290 sqrt ε` degrees on the circle.  In particular longitude 180
comes back as about ±180: the reported 0 of C01 is an effect of exact arithmetic.  All three copies. -/
theorem C65_roundtrip (hp : 8 ≤ r.p) (h : LibRel r ε) (hε : ε ≤ 1 / 4096) {R t lon lat : ℝ} (hR : 0 < R) (ht : ThrOk t)
    (htr : Rep r.p t) (hlon : |lon| ≤ 180) (hlat : |lat| ≤ 90) :
    ∀ res ∈ [xyz2lonlat (val R) (val t) true (lonlat2xyz (val R) (val lon : Fl r) (val lat)),
        cyXyz2lonlat (val R) (val t) true (cyLonlat2xyz (val R) (val lon : Fl r) (val lat)),
        viiXyz2lonlat (val R) (val t) (lonlat2xyz (val R) (val lon : Fl r) (val lat))],
      (|lat| ≤ 90 * (1 - 4 * ε) → ∃ L, Rep r.p L ∧ res.1 = val L ∧ Spec.LonWithin (290 * √ε) L lon) ∧
      (∃ B, Rep r.p B ∧ res.2 = val B ∧ |B - lat| ≤ 2000 * ε) := by
  have h0 := h.pos
  have e180 : (180 : Fl r) = val 180 := by
    have := ofNat_of_rep (r := r) 180 (by simpa using rep_180 hp)
    simpa using this
  have hcy : cyLonlat2xyz (val R) (val lon : Fl r) (val lat) = lonlat2xyz (val R) (val lon) (val lat) := rfl
  rw [hcy]
  simp only [lonlat2xyz, deg2rad, e180, pi_eq, val_div_of_ne _ (by norm_num : (180 : ℝ) ≠ 0), val_mul, cos_val, sin_val]
  have hd1 := rad_rel h hε lon
  have hd2 := rad_rel h hε lat
  have hlr := r.rep (lon * r.rnd (r.rnd Real.pi / 180))
  obtain ⟨lam, elam⟩ : ∃ lam, lam = r.rnd (lon * r.rnd (r.rnd Real.pi / 180)) := ⟨_, rfl⟩
  obtain ⟨phi, ephi⟩ : ∃ phi, phi = r.rnd (lat * r.rnd (r.rnd Real.pi / 180)) := ⟨_, rfl⟩
  rw [← elam] at hd1 hlr ⊢
  rw [← ephi] at hd2 ⊢
  have hP := prod_rel h hε R (h.cos phi)
  have hz := prod_rel h hε R (h.sin phi)
  obtain ⟨P, eP⟩ : ∃ P, P = r.rnd (R * r.cos phi) := ⟨_, rfl⟩
  rw [← eP] at hP ⊢
  have hx := prod_rel h hε P (h.cos lam)
  have hy := prod_rel h hε P (h.sin lam)
  have hxr := r.rep (P * r.cos lam)
  obtain ⟨x, ex⟩ : ∃ x, x = r.rnd (P * r.cos lam) := ⟨_, rfl⟩
  obtain ⟨y, ey⟩ : ∃ y, y = r.rnd (P * r.sin lam) := ⟨_, rfl⟩
  obtain ⟨z, ez⟩ : ∃ z, z = r.rnd (R * r.sin phi) := ⟨_, rfl⟩
  rw [← ex] at hx hxr ⊢
  rw [← ey] at hy ⊢
  rw [← ez] at hz ⊢
  obtain ⟨g1, g2, g3⟩ := lat_core hR hlat hd2 (by positivity) (by positivity) (by positivity) hP hx hy hz
  have hη : 2.01 * ε + 2.01 * ε + 2.01 * ε * (2.01 * ε) + 1.58 * (3.02 * ε) ≤ 8.81 * ε := by nlinarith
  obtain ⟨b1, b2, b3⟩ := lat_near hp h hε hR ht (η := 8.81 * ε) (by linarith) g1 (g2.trans hη) (g3.trans hη)
  rw [deg_rad] at b1 b2 b3
  have lonOk : |lat| ≤ 90 * (1 - 4 * ε) → ∃ L, Rep r.p L ∧
      rad2deg (Trig.acos ((val x : Fl r) / val (hyp r x y))) * val (if 0 < y then 1 else if y < 0 then -1 else 0) = val L ∧
      Spec.LonWithin (290 * √ε) L lon := by
    intro hl
    have hc : 0 < Real.cos phi := cos_pos_core hd2 (by nlinarith [abs_nonneg lat])
    have hPpos : 0 < P := pos_of_rel hP (by linarith) (mul_pos hR hc)
    obtain ⟨L, l1, l2, -, k, hk, hk'⟩ := lon_core hp h hε hlon hlr hd1 (by positivity) (by linarith) hPpos hx hy (by positivity)
      (by linarith) hxr
    refine ⟨L, l1, l2, k, hk, hk'.trans ?_⟩
    have hs0 := Real.sqrt_nonneg ε
    have hs2 : √ε * √ε = ε := Real.mul_self_sqrt h0.le
    have hs : √ε ≤ 1 / 64 := by
      rw [Real.sqrt_le_left (by norm_num)]; linarith
    have h4 : ε ≤ √ε / 64 := by nlinarith
    linarith
  have latOk : ∀ {q : Fl r}, (∃ B, Rep r.p B ∧ q = val B ∧ |B - lat| ≤ 115 * (8.81 * ε) + 950 * ε) →
      ∃ B, Rep r.p B ∧ q = val B ∧ |B - lat| ≤ 2000 * ε := by
    rintro q ⟨B, h1, h2, h3⟩
    exact ⟨B, h1, h2, h3.trans (by linarith)⟩
  intro res hres
  simp only [List.mem_cons, List.not_mem_nil, or_false] at hres
  rcases hres with rfl | rfl | rfl
  · refine ⟨fun hl => ?_, latOk b1⟩
    simp only [xyz2lonlat, hyp_val, asign_val]
    exact lonOk hl
  · refine ⟨fun hl => ?_, latOk (b2 htr)⟩
    simp only [cyXyz2lonlat, toFloating_eq, toDouble_eq, hyp_val, csign_val]
    exact lonOk hl
  · refine ⟨fun hl => ?_, latOk b3⟩
    simp only [viiXyz2lonlat, hyp_val, asign_val]
    exact lonOk hl

/-- the threshold of the code, rounded -/
theorem thrOk_rnd (hp : 8 ≤ r.p) : ThrOk (r.rnd (8 / 10)) := by
  have h := abs_le.1 (r.abs_rnd_sub_le_u (8 / 10))
  have hu := u_le_8 hp
  rw [abs_of_pos (by norm_num : (0 : ℝ) < 8 / 10)] at h
  constructor
  · linarith [h.1]
  · linarith [h.2]

/-- The threshold and radii of the code. -/
theorem C65_roundtrip_code (hp : 23 ≤ r.p) (h : LibRel r ε) (hε : ε ≤ 1 / 4096) {lon lat : ℝ} (hlon : |lon| ≤ 180)
    (hlat : |lat| ≤ 90) :
    ∀ res ∈ [xyz2lonlat earthRadius defaultThr true (lonlat2xyz earthRadius (val lon : Fl r) (val lat)),
        cyXyz2lonlat earthRadius cyThr true (cyLonlat2xyz earthRadius (val lon : Fl r) (val lat)),
        viiXyz2lonlat meanEarthRadius defaultThr (lonlat2xyz meanEarthRadius (val lon : Fl r) (val lat))],
      (|lat| ≤ 90 * (1 - 4 * ε) → ∃ L, Rep r.p L ∧ res.1 = val L ∧ Spec.LonWithin (290 * √ε) L lon) ∧
      (∃ B, Rep r.p B ∧ res.2 = val B ∧ |B - lat| ≤ 2000 * ε) := by
  have hp8 : 8 ≤ r.p := by omega
  have et : (defaultThr : Fl r) = val (r.rnd (8 / 10)) := by
    show val (r.rnd (((8 : Nat) : ℝ) / (10 : ℝ) ^ 1)) = _
    norm_num
  have et' : (cyThr : Fl r) = val (r.rnd (8 / 10)) := by
    show Trig.toFloating (val (r.rnd (((8 : Nat) : ℝ) / (10 : ℝ) ^ 1)) : Fl r) = _
    rw [toFloating_eq]; norm_num
  have eR : (earthRadius : Fl r) = val (r.rnd (((63709970 : Nat) : ℝ) / (10 : ℝ) ^ 1)) := rfl
  have eR' : (meanEarthRadius : Fl r) = val (r.rnd (((63710087714 : Nat) : ℝ) / (10 : ℝ) ^ 4)) := rfl
  have k1 := C65_roundtrip hp8 h hε (R := r.rnd (((63709970 : Nat) : ℝ) / (10 : ℝ) ^ 1)) (r.rnd_pos (by norm_num))
    (thrOk_rnd hp8) (r.rep _) hlon hlat
  have k2 := C65_roundtrip hp8 h hε (R := r.rnd (((63710087714 : Nat) : ℝ) / (10 : ℝ) ^ 4)) (r.rnd_pos (by norm_num))
    (thrOk_rnd hp8) (r.rep _) hlon hlat
  rw [et, et', eR, eR']
  intro res hres
  simp only [List.mem_cons, List.not_mem_nil, or_false] at hres
  rcases hres with rfl | rfl | rfl
  · exact k1 _ (by simp)
  · exact k1 _ (by simp)
  · exact k2 _ (by simp)

/-- **C65, the 180-degree meridian**: with rounding, longitudes 180 and -180 come back near 180 or -180, never as 0
(compare `C01_antimeridian_reports_zero`). -/
theorem C65_antimeridian {L lon e : ℝ} (hlon : |lon| = 180) (h : Spec.LonWithin e L lon) : 180 - e ≤ |L| := by
  obtain ⟨k, hk, hk'⟩ := h
  have h1 : lon = 180 ∨ lon = -180 := eq_or_eq_neg_of_abs_eq hlon
  have hk1 : k = -1 ∨ k = 0 ∨ k = 1 := by
    have := abs_le.1 hk
    omega
  have h2 := abs_le.1 hk'
  have h3 := le_abs_self L
  have h4 := neg_abs_le L
  have h5 := abs_nonneg L
  rcases h1 with rfl | rfl <;> rcases hk1 with rfl | rfl | rfl <;> push_cast at h2 <;> linarith [h2.1, h2.2]

theorem C65_antimeridian_code (hp : 23 ≤ r.p) (h : LibRel r ε) (hε : ε ≤ 1 / 4096) {lon lat : ℝ} (hlon : |lon| = 180)
    (hlat : |lat| ≤ 90 * (1 - 4 * ε)) :
    ∃ L, (xyz2lonlat earthRadius defaultThr true (lonlat2xyz earthRadius (val lon : Fl r) (val lat))).1 = val L ∧
      180 - 290 * √ε ≤ |L| := by
  have h90 : |lat| ≤ 90 := hlat.trans (by linarith [h.pos])
  obtain ⟨L, -, e, hl⟩ := (C65_roundtrip_code hp h hε hlon.le h90 _ (List.mem_cons_self ..)).1 hlat
  exact ⟨L, e, C65_antimeridian hlon hl⟩

private theorem u53 : (Rounding.correct 53 (by norm_num)).u = 1 / 2 ^ 53 := by
  show (2 : ℝ) ^ (-((53 : ℕ) : ℤ)) = _
  rw [zpow_neg, zpow_natCast]; norm_num

example : ∃ B, (viiXyz2lonlat (val 6370997) (val (3 / 4)) (lonlat2xyz (val 6370997) (val (-179) : Fl (Rounding.correct 53 (by norm_num)))
      (val 90))).2 = val B ∧ |B - 90| ≤ 1 / 10 ^ 12 := by
  obtain ⟨-, B, -, h1, h2⟩ := C65_roundtrip (r := Rounding.correct 53 (by norm_num)) (by show 8 ≤ 53; norm_num)
    (libRel_correct 53 (by norm_num)) (by rw [u53]; norm_num) (R := 6370997) (t := 3 / 4) (lon := -179) (lat := 90) (by norm_num)
    ⟨by norm_num, by norm_num⟩ ⟨3, -2, by norm_num [Rounding.correct], by norm_num⟩ (by norm_num [abs_le]) (by norm_num [abs_le]) _
    (List.mem_cons_of_mem _ (List.mem_cons_of_mem _ (List.mem_cons_self ..)))
  refine ⟨B, h1, h2.trans ?_⟩
  rw [u53]; norm_num

example : ∃ L, (xyz2lonlat earthRadius defaultThr true
      (lonlat2xyz earthRadius (val 12.5 : Fl (Rounding.correct 53 (by norm_num))) (val (-60)))).1 = val L ∧ Spec.LonWithin (4 / 10 ^ 6) L 12.5 := by
  obtain ⟨h, -⟩ := C65_roundtrip_code (r := Rounding.correct 53 (by norm_num)) (by show 23 ≤ 53; norm_num)
    (libRel_correct 53 (by norm_num)) (by rw [u53]; norm_num) (lon := 12.5) (lat := -60) (by norm_num [abs_le]) (by norm_num [abs_le]) _
    (List.mem_cons_self ..)
  obtain ⟨L, -, h1, k, h2, h3⟩ := h (by rw [u53]; norm_num [abs_le])
  refine ⟨L, h1, k, h2, h3.trans ?_⟩
  have : √(Rounding.correct 53 (by norm_num)).u ≤ 1.2 / 10 ^ 8 := by
    rw [u53, Real.sqrt_le_left (by norm_num)]; norm_num
  linarith

example (L : ℝ) (h : Spec.LonWithin (1 / 100) L (-180)) : 179.99 ≤ |L| := by
  have := C65_antimeridian (by norm_num [abs_of_neg]) h
  linarith

/-- doubles with correctly rounded functions: 4 millionths of a degree -/
example : ∃ L, (xyz2lonlat earthRadius defaultThr true
      (lonlat2xyz earthRadius (val 180 : Fl (Rounding.correct 53 (by norm_num))) (val 60))).1 = val L ∧ 180 - 4 / 10 ^ 6 ≤ |L| := by
  obtain ⟨L, h1, h2⟩ := C65_antimeridian_code (r := Rounding.correct 53 (by norm_num)) (by show 23 ≤ 53; norm_num)
    (libRel_correct 53 (by norm_num)) (by rw [u53]; norm_num) (lon := 180) (lat := 60) (by norm_num)
    (by rw [u53]; norm_num [abs_le])
  refine ⟨L, h1, ?_⟩
  have : √(Rounding.correct 53 (by norm_num)).u ≤ 1.2 / 10 ^ 8 := by
    rw [u53, Real.sqrt_le_left (by norm_num)]; norm_num
  linarith

/-- a point 1 km above the surface (`eta` = 1/6000) -/
example : ∃ B, (viiXyz2lonlat (val 6370997) (val (3 / 4)) (flpt (Rounding.correct 53 (by norm_num)) (6371997, 0, 0))).2 = val B ∧
    |B - 0| ≤ 0.02 := by
  have rep (n : ℤ) (h : |n| ≤ 2 ^ 53) : Rep 53 (n : ℝ) := rep_int (by norm_num) h
  have h := C64_back_error (r := Rounding.correct 53 (by norm_num)) (by show 8 ≤ 53; norm_num)
    (libRel_correct 53 (by norm_num)) (by rw [u53]; norm_num) (R := 6370997) (t := 3 / 4) (lon := 0) (lat := 0) (eta := 1 / 6000)
    (p := (6371997, 0, 0)) (by norm_num) ⟨by norm_num, by norm_num⟩ ⟨3, -2, by norm_num [Rounding.correct], by norm_num⟩
    (by norm_num) (by norm_num) (by norm_num)
    ⟨by exact_mod_cast rep 6371997 (by norm_num), rep_zero, rep_zero⟩
    (by constructor <;> norm_num [Spec.spherePoint, Spec.rad])
  obtain ⟨-, B, -, h1, h2⟩ := h _ (List.mem_cons_of_mem _ (List.mem_cons_of_mem _ (List.mem_cons_self ..)))
  refine ⟨B, h1, h2.trans ?_⟩
  rw [u53]; norm_num

end Verif.Props
