import Verif.Base.Ov
import Verif.Model.GeoConv
import Verif.Model.ModisInterp
import Verif.Spec.Modis

/-!
# The conversions and the formulas of the MODIS interpolator under overflow
-/

namespace Verif.Ov
open Verif Verif.Geo Verif.Modis
variable {α : Type} [Trig α] {m : Approx α} {L : Limit m}
variable {x y : Ov L} {a b : α} {A B C : ℝ}

/-- pairs -/
def Same2 (p : Ov L × Ov L) (v : α × α) (B : ℝ) : Prop := Same p.1 v.1 B ∧ Same p.2 v.2 B
/-- triples -/
def Same3 (p : Ov L × Ov L × Ov L) (v : α × α × α) (B : ℝ) : Prop := Same p.1 v.1 B ∧ Same p.2.1 v.2.1 B ∧ Same p.2.2 v.2.2 B

section
variable (hL : (10 : ℝ) ^ 37 ≤ L.bound)
include hL

theorem leL (h : C ≤ (10 : ℝ) ^ 37) : C ≤ L.bound := h.trans hL

theorem csign_same (hx : Same x a A) : Same (csign x) (csign a) 2 := by
  obtain ⟨h1, h0, h2⟩ := same_csign_aux (m := m) (leL hL (by norm_num) : (2 : ℝ) ≤ L.bound)
  unfold csign
  rw [h0.lt hx, hx.lt h0]
  exact Same.ite h1 (Same.ite h2 h0)

theorem asign_same (hx : Same x a A) : Same (asign x) (asign a) (max 2 A) := by
  obtain ⟨h1, h0, h2⟩ := same_csign_aux (m := m) (leL hL (by norm_num) : (2 : ℝ) ≤ L.bound)
  unfold asign
  rw [h0.lt hx, hx.lt h0, hx.eq_ h0]
  have := le_max_left 2 A
  exact Same.ite (h1.mono this) (Same.ite (h2.mono this) (Same.ite (h0.mono this) (hx.mono (le_max_right _ _))))

theorem aabs_same (hx : Same x a A) (hA : A ≤ L.bound) : Same (aabs x) (aabs a) A := by
  obtain ⟨h1, h0, h2⟩ := same_csign_aux (m := m) (leL hL (by norm_num) : (2 : ℝ) ≤ L.bound)
  unfold aabs
  rw [hx.lt h0]
  exact Same.ite (hx.neg hA) hx

/-- `pi / 180` -/
theorem radFactor : Same (Trig.pi / 180 : Ov L) (Trig.pi / 180) 1 :=
  (Same.pi le_rfl (leL hL (by norm_num))).div (Same.ofNat 180 (C := 225) (by norm_num) (leL hL (by norm_num)))
    (D := 135) (by have := (m.mag_ofInt 180).2; norm_num at this; exact this) (by norm_num) (by norm_num) (leL hL (by norm_num))

/-- `180 / pi` -/
theorem degFactor : Same (180 / Trig.pi : Ov L) (180 / Trig.pi) 150 :=
  (Same.ofNat 180 (C := 225) (by norm_num) (leL hL (by norm_num))).div (Same.pi le_rfl (leL hL (by norm_num)))
    (D := 2) m.mag_pi.2 (by norm_num) (by norm_num) (leL hL (by norm_num))

theorem deg2rad_same (hx : Same x a A) (hA : A ≤ 10 ^ 20) : Same (deg2rad x) (deg2rad a) (1.25 * A) :=
  hx.mul (radFactor hL) (by linarith) (leL hL (by linarith))

theorem cyDeg2rad_same (hx : Same x a A) (hA : A ≤ 10 ^ 20) : Same (cyDeg2rad x) (cyDeg2rad a) (2 * A) :=
  (deg2rad_same hL hx hA).toFloating (by have := hx.nonneg; linarith) (leL hL (by linarith))

theorem rad2deg_same (hx : Same x a A) (hA : A ≤ 10 ^ 20) : Same (rad2deg x) (rad2deg a) (200 * A) :=
  hx.mul (degFactor hL) (by have := hx.nonneg; linarith) (leL hL (by linarith))

theorem radius_same : Same (earthRadius : Ov L) earthRadius (10 ^ 7) :=
  Same.lit _ _ (by norm_num) (leL hL (by norm_num))
omit hL in
theorem radius_ge : (10 : ℝ) ^ 6 ≤ m.mag (earthRadius : α) := by
  have := (m.mag_lit 63709970 1).2
  norm_num at this
  exact le_trans (by norm_num) this
theorem meanRadius_same : Same (meanEarthRadius : Ov L) meanEarthRadius (10 ^ 7) :=
  Same.lit _ _ (by norm_num) (leL hL (by norm_num))
omit hL in
theorem meanRadius_ge : (10 : ℝ) ^ 6 ≤ m.mag (meanEarthRadius : α) := by
  have := (m.mag_lit 63710087714 4).2
  norm_num at this
  exact le_trans (by norm_num) this
theorem thr_same : Same (defaultThr : Ov L) defaultThr 1 :=
  Same.lit _ _ (by norm_num) (leL hL (by norm_num))
theorem cyThr_same : Same (cyThr : Ov L) cyThr 2 :=
  (thr_same hL).toFloating (by norm_num) (leL hL (by norm_num))

variable {R : Ov L} {ra : α}

theorem lonlat2xyz_same (hR : Same R ra (10 ^ 7)) (hx : Same x a (10 ^ 10)) (hy : Same y b (10 ^ 10)) :
    Same3 (lonlat2xyz R x y) (lonlat2xyz ra a b) (10 ^ 8) := by
  have l2 := leL hL (by norm_num : (2 : ℝ) ≤ _)
  have h1 := deg2rad_same hL hx (by norm_num)
  have h2 := deg2rad_same hL hy (by norm_num)
  have h3 : Same (R * Trig.cos (deg2rad y)) (ra * Trig.cos (deg2rad b)) (2.5 * 10 ^ 7) :=
    hR.mul (h2.cos l2) (by norm_num) (leL hL (by norm_num))
  exact ⟨h3.mul (h1.cos l2) (by norm_num) (leL hL (by norm_num)), h3.mul (h1.sin l2) (by norm_num) (leL hL (by norm_num)),
    hR.mul (h2.sin l2) (by norm_num) (leL hL (by norm_num))⟩

theorem cyLonlat2xyz_same (hR : Same R ra (10 ^ 7)) (hx : Same x a (10 ^ 10)) (hy : Same y b (10 ^ 10)) :
    Same3 (cyLonlat2xyz R x y) (cyLonlat2xyz ra a b) (10 ^ 8) := by
  have l2 := leL hL (by norm_num : (2 : ℝ) ≤ _)
  have h1 := cyDeg2rad_same hL hx (by norm_num)
  have h2 := cyDeg2rad_same hL hy (by norm_num)
  have h3 : Same (R * Trig.cos (cyDeg2rad y)) (ra * Trig.cos (cyDeg2rad b)) (2.5 * 10 ^ 7) :=
    hR.mul (h2.cos l2) (by norm_num) (leL hL (by norm_num))
  have l8 := leL hL (by norm_num : (10 : ℝ) ^ 8 ≤ _)
  have l7 := leL hL (by norm_num : (6.25 * 10 ^ 7 : ℝ) ≤ _)
  exact ⟨(h3.mul (h1.cos l2) (by norm_num) l7).toFloating (by norm_num) l8,
    (h3.mul (h1.sin l2) (by norm_num) l7).toFloating (by norm_num) l8,
    (hR.mul (h2.sin l2) (by norm_num) l7).toFloating (by norm_num) l8⟩

/-- `sqrt(x * x + y * y)` -/
theorem hyp_same (hx : Same x a (10 ^ 18)) (hy : Same y b (10 ^ 18)) :
    Same (Trig.sqrt (x * x + y * y)) (Trig.sqrt (a * a + b * b)) (10 ^ 19) := by
  have l := leL hL (by norm_num : (1.25 * 10 ^ 36 : ℝ) ≤ _)
  refine Same.sqrt (A := 4 * 10 ^ 36) ?_ (by norm_num) (by norm_num) (leL hL (by norm_num))
  exact (hx.mul hx (by norm_num) l).add (hy.mul hy (by norm_num) l) (by norm_num) (leL hL (by norm_num))

/-- the longitude without its sign -/
theorem lon_same (hx : Same x a (10 ^ 18)) (hy : Same y b (10 ^ 18)) :
    Same (rad2deg (Trig.acos (x / Trig.sqrt (x * x + y * y)))) (rad2deg (Trig.acos (a / Trig.sqrt (a * a + b * b)))) 1000 := by
  have h := hx.div' (hyp_same hL hx hy) (m.mag_unit a b) (leL hL (by norm_num))
  exact (rad2deg_same hL (h.acos (leL hL (by norm_num))) (by norm_num)).mono (by norm_num)

/-- `90 - rad2deg(asin(v / R))`, `90 - rad2deg(acos(v / R))` -/
theorem lat_same (hR : Same R ra (10 ^ 7)) (hr : 10 ^ 6 ≤ m.mag ra) (hx : Same x a (10 ^ 37)) :
    Same (90 - rad2deg (Trig.asin (x / R))) (90 - rad2deg (Trig.asin (a / ra))) 2000 ∧
    Same (90 - rad2deg (Trig.acos (x / R))) (90 - rad2deg (Trig.acos (a / ra))) 2000 := by
  have h : Same (x / R) (a / ra) (1.25 * 10 ^ 31) := hx.div hR hr (by norm_num) (by norm_num) (leL hL (by norm_num))
  have h90 : Same (90 : Ov L) 90 120 := Same.ofNat 90 (by norm_num) (leL hL (by norm_num))
  have l5 := leL hL (by norm_num : (5 : ℝ) ≤ _)
  exact ⟨h90.sub (rad2deg_same hL (h.asin l5) (by norm_num)) (by norm_num) (leL hL (by norm_num)),
    h90.sub (rad2deg_same hL (h.acos l5) (by norm_num)) (by norm_num) (leL hL (by norm_num))⟩

variable {z T : Ov L} {c t : α}

theorem xyz2lonlat_same (hR : Same R ra (10 ^ 7)) (hr : 10 ^ 6 ≤ m.mag ra) (hT : Same T t 2) (low : Bool)
    (hx : Same x a (10 ^ 18)) (hy : Same y b (10 ^ 18)) (hz : Same z c (10 ^ 18)) :
    Same2 (xyz2lonlat R T low (x, y, z)) (xyz2lonlat ra t low (a, b, c)) (10 ^ 22) := by
  have lats : Same (asign z * (90 - rad2deg (Trig.asin (Trig.sqrt (x * x + y * y) / R))))
      (asign c * (90 - rad2deg (Trig.asin (Trig.sqrt (a * a + b * b) / ra)))) (10 ^ 22) :=
    ((asign_same hL hz).mono (C := 10 ^ 18) (by norm_num)).mul (lat_same hL hR hr ((hyp_same hL hx hy).mono (by norm_num))).1 (by norm_num) (leL hL (by norm_num))
  refine ⟨(lon_same hL hx hy).mul ((asign_same hL hy).mono (C := 10 ^ 18) (by norm_num)) (by norm_num) (leL hL (by norm_num)), ?_⟩
  cases low
  · exact lats
  · have h : Same (z / R) (c / ra) (1.25 * 10 ^ 12) := hz.div hR hr (by norm_num) (by norm_num) (leL hL (by norm_num))
    have hc := (aabs_same hL h (leL hL (by norm_num))).lt hT
    simp only [xyz2lonlat, if_true]
    rw [hc]
    exact Same.ite ((lat_same hL hR hr (hz.mono (by norm_num))).2.mono (by norm_num)) lats

/-- the Cython conversion squares doubles: positions up to `7 * 10^35` -/
theorem cyXyz2lonlat_same (hW : (10 : ℝ) ^ 75 ≤ L.wide) (hR : Same R ra (10 ^ 7)) (hr : 10 ^ 6 ≤ m.mag ra) (hT : Same T t 2) (low : Bool)
    (hx : Same x a (7 * 10 ^ 35)) (hy : Same y b (7 * 10 ^ 35)) (hz : Same z c (7 * 10 ^ 35)) :
    Same2 (cyXyz2lonlat R T low (x, y, z)) (cyXyz2lonlat ra t low (a, b, c)) (10 ^ 4) := by
  have l36 := leL hL (by norm_num : (10 : ℝ) ^ 36 ≤ _)
  have x' : Same (Trig.toDouble x) (Trig.toDouble a) (10 ^ 36) := hx.toDouble (by norm_num) l36
  have y' : Same (Trig.toDouble y) (Trig.toDouble b) (10 ^ 36) := hy.toDouble (by norm_num) l36
  have z' : Same (Trig.toDouble z) (Trig.toDouble c) (10 ^ 36) := hz.toDouble (by norm_num) l36
  have dx := L.dbl_toDouble a
  have dy := L.dbl_toDouble b
  have hyp : Same (Trig.sqrt (Trig.toDouble x * Trig.toDouble x + Trig.toDouble y * Trig.toDouble y))
      (Trig.sqrt (Trig.toDouble a * Trig.toDouble a + Trig.toDouble b * Trig.toDouble b)) (10 ^ 37) := by
    have w := le_trans (by norm_num : (1.25 * 10 ^ 72 : ℝ) ≤ _) hW
    refine Same.sqrt (A := 4 * 10 ^ 72) ?_ (by norm_num) (by norm_num) hL
    exact (x'.mulD x' dx dx (by norm_num) w).addD (y'.mulD y' dy dy (by norm_num) w) (L.dbl_mul _ _ dx dx) (L.dbl_mul _ _ dy dy)
      (by norm_num) (le_trans (by norm_num) hW)
  have l4 := leL hL (by norm_num : (10 : ℝ) ^ 4 ≤ _)
  have l5 := leL hL (by norm_num : (5000 : ℝ) ≤ _)
  have tr : Same (T * R) (t * ra) (2.5 * 10 ^ 7) := hT.mul hR (by norm_num) (leL hL (by norm_num))
  have tr' : Same (-1 * T * R) (-1 * t * ra) (10 ^ 8) :=
    ((same_csign_aux (leL hL (by norm_num))).2.2.mul hT (C := 5) (by norm_num) (leL hL (by norm_num))).mul hR (by norm_num) (leL hL (by norm_num))
  have lon : Same (rad2deg (Trig.acos (Trig.toDouble x / Trig.sqrt (Trig.toDouble x * Trig.toDouble x + Trig.toDouble y * Trig.toDouble y))))
      (rad2deg (Trig.acos (Trig.toDouble a / Trig.sqrt (Trig.toDouble a * Trig.toDouble a + Trig.toDouble b * Trig.toDouble b)))) 1000 :=
    (rad2deg_same hL ((x'.div' hyp (m.mag_unit _ _) (leL hL (by norm_num))).acos (leL hL (by norm_num))) (by norm_num)).mono (by norm_num)
  refine ⟨(lon.mul (csign_same hL y') (C := 5000) (by norm_num) l5).toFloating (by norm_num) l4, ?_⟩
  refine Same.toFloating (A := 5000) ?_ (by norm_num) l4
  simp only
  rw [z'.lt tr, tr'.lt z']
  exact Same.ite ((lat_same hL hR hr (z'.mono (by norm_num))).2.mono (by norm_num))
    ((csign_same hL z').mul (lat_same hL hR hr hyp).1 (by norm_num) l5)

theorem viiXyz2lonlat_same (hR : Same R ra (10 ^ 7)) (hr : 10 ^ 6 ≤ m.mag ra) (hT : Same T t 2)
    (hx : Same x a (10 ^ 18)) (hy : Same y b (10 ^ 18)) (hz : Same z c (10 ^ 18)) :
    Same2 (viiXyz2lonlat R T (x, y, z)) (viiXyz2lonlat ra t (a, b, c)) (10 ^ 22) := by
  have tr : Same (T * R) (t * ra) (2.5 * 10 ^ 7) := hT.mul hR (by norm_num) (leL hL (by norm_num))
  refine ⟨(lon_same hL hx hy).mul ((asign_same hL hy).mono (C := 10 ^ 18) (by norm_num)) (by norm_num) (leL hL (by norm_num)), ?_⟩
  simp only [viiXyz2lonlat]
  rw [hz.lt tr, (tr.neg (leL hL (by norm_num))).lt hz]
  exact Same.ite ((lat_same hL hR hr (hz.mono (by norm_num))).2.mono (by norm_num))
    (((asign_same hL hz).mono (C := 10 ^ 18) (by norm_num)).mul (lat_same hL hR hr ((hyp_same hL hx hy).mono (by norm_num))).1 (by norm_num) (leL hL (by norm_num)))

/-! ### expansion and alignment -/

theorem satR_same : Same (satR : Ov L) satR 8000 := Same.lit _ _ (by norm_num) (leL hL (by norm_num))
theorem satH_same : Same (satH : Ov L) satH 900 := Same.lit _ _ (by norm_num) (leL hL (by norm_num))
omit hL in
theorem satR_ge : 4000 ≤ m.mag (satR : α) := by
  have := (m.mag_lit 6370997 3).2
  norm_num at this
  exact le_trans (by norm_num) this
theorem sat_same : Same (satR + satH : Ov L) (satR + satH) 12000 :=
  (satR_same hL).add (satH_same hL) (by norm_num) (leL hL (by norm_num))
omit hL in
/-- the sum of two positive numbers is at least three quarters of the larger -/
theorem sat_ge : 3000 ≤ m.mag (satR + satH : α) := by
  obtain ⟨u, u1, u2⟩ := m.lit_v 6370997 3
  obtain ⟨v, v1, v2⟩ := m.lit_v 7090 1
  obtain ⟨w, w1, w2⟩ := m.add_v _ _ u v u1 v1
  have u3 := abs_le.1 u2
  have v3 := abs_le.1 v2
  norm_num at u3 v3
  rw [abs_of_nonneg (by linarith : (0 : ℝ) ≤ u), abs_of_nonneg (by linarith : (0 : ℝ) ≤ v)] at w2
  have w3 := abs_le.1 w2
  unfold satR satH
  rw [m.mag_some w1]
  exact le_trans (by linarith) (le_abs_self w)

theorem computePhi_same (hx : Same x a A) : Same (computePhi x) (computePhi a) 7 := by
  have h : Same (satR * Trig.sin x) (satR * Trig.sin a) 20000 :=
    (satR_same hL).mul (hx.sin (leL hL (by norm_num))) (by norm_num) (leL hL (by norm_num))
  have h' : Same (satR * Trig.sin x / (satR + satH)) (satR * Trig.sin a / (satR + satH)) 10 :=
    h.div (sat_same hL) sat_ge (by norm_num) (by norm_num) (leL hL (by norm_num))
  exact (h'.asin (leL hL (by norm_num))).toFloating (by norm_num) (leL hL (by norm_num))

theorem computeZeta_same (hx : Same x a A) : Same (computeZeta x) (computeZeta a) 7 := by
  have h : Same ((satR + satH) * Trig.sin x) ((satR + satH) * Trig.sin a) 30000 :=
    (sat_same hL).mul (hx.sin (leL hL (by norm_num))) (by norm_num) (leL hL (by norm_num))
  have h' : Same ((satR + satH) * Trig.sin x / satR) ((satR + satH) * Trig.sin a / satR) 10 :=
    h.div (satR_same hL) satR_ge (by norm_num) (by norm_num) (leL hL (by norm_num))
  exact (h'.asin (leL hL (by norm_num))).toFloating (by norm_num) (leL hL (by norm_num))

omit hL in
theorem two_ge : 1 ≤ m.mag (2 : α) := by
  have := (m.mag_ofInt 2).2
  norm_num at this
  exact le_trans (by norm_num) this

/-- the variable `e` of `_compute_expansion_alignment` -/
def sag (w : Nat) (phi zeta : α) : α :=
  let d := Trig.toFloating (((satR + satH) / satR * Trig.cos phi - Trig.cos zeta) * Trig.toFloating (Arith.ofInt w / (2 * satH)))
  Trig.toFloating (Trig.cos zeta - Trig.sqrt (Trig.cos zeta * Trig.cos zeta - d * d))

theorem sag_same (w : Nat) (hw : w ≤ 5) (phi : Same x a A) (zeta : Same y b B) : Same (sag w x y) (sag w a b) 100 := by
  have l (C : ℝ) (h : C ≤ 10 ^ 37) : C ≤ L.bound := leL hL h
  have two : Same (2 : Ov L) 2 3 := Same.ofNat 2 (by norm_num) (l _ (by norm_num))
  have sb : Same (Trig.toFloating (Arith.ofInt w / (2 * satH)) : Ov L) (Trig.toFloating (Arith.ofInt w / (2 * satH))) 1 := by
    have h2h : Same (2 * satH : Ov L) (2 * satH) 4000 := two.mul (satH_same hL) (by norm_num) (l _ (by norm_num))
    have hD : 100 ≤ m.mag (2 * satH : α) := by
      have h1 := (m.mag_mul (2 : α) satH).2
      have h2 : 500 ≤ m.mag (satH : α) := by
        have := (m.mag_lit 7090 1).2
        norm_num at this
        exact le_trans (by norm_num) this
      have h3 := two_ge (m := m)
      nlinarith
    have hw' : (w : ℝ) ≤ 5 := by exact_mod_cast hw
    have hi : Same (Arith.ofInt (w : ℤ) : Ov L) (Arith.ofInt (w : ℤ)) 7 :=
      Same.ofInt _ (by rw [Int.cast_natCast, abs_of_nonneg (by positivity)]; linarith) (l _ (by norm_num))
    exact (hi.div h2h hD (C := 0.1) (by norm_num) (by norm_num) (l _ (by norm_num))).toFloating (by norm_num) (l _ (by norm_num))
  have cz := zeta.cos (l _ (by norm_num))
  have q : Same ((satR + satH) / satR : Ov L) ((satR + satH) / satR) 4 :=
    (sat_same hL).div (satR_same hL) satR_ge (by norm_num) (by norm_num) (l _ (by norm_num))
  have d := (((q.mul (phi.cos (l _ (by norm_num))) (C := 10) (by norm_num) (l _ (by norm_num))).sub cz (C := 15) (by norm_num)
    (l _ (by norm_num))).mul sb (C := 20) (by norm_num) (l _ (by norm_num))).toFloating (C := 25) (by norm_num) (l _ (by norm_num))
  exact (cz.sub (((cz.mul cz (C := 5) (by norm_num) (l _ (by norm_num))).sub (d.mul d (C := 800) (by norm_num) (l _ (by norm_num)))
    (C := 1100) (by norm_num) (l _ (by norm_num))).sqrt (C := 60) (by norm_num) (by norm_num) (l _ (by norm_num))) (C := 80) (by norm_num)
    (l _ (by norm_num))).toFloating (C := 100) (by norm_num) (l _ (by norm_num))

/-- Expansion and alignment: if the coefficients are at most `10^17` without overflow, no step overflows. -/
theorem expansionAlignment_same (w : Nat) (hw : w ≤ 5) (hx : Same x a (10 ^ 10)) (hy : Same y b (10 ^ 10))
    (he : m.mag (expansionAlignment w a b).1 ≤ 10 ^ 17) (ha : m.mag (expansionAlignment w a b).2 ≤ 10 ^ 17) :
    Same2 (expansionAlignment w x y) (expansionAlignment w a b) (10 ^ 17) := by
  have l (C : ℝ) (h : C ≤ 10 ^ 37) : C ≤ L.bound := leL hL h
  have two : Same (2 : Ov L) 2 3 := Same.ofNat 2 (by norm_num) (l _ (by norm_num))
  have four : Same (4 : Ov L) 4 5 := Same.ofNat 4 (by norm_num) (l _ (by norm_num))
  have ra := cyDeg2rad_same hL hx (by norm_num)
  have rb := cyDeg2rad_same hL hy (by norm_num)
  have pa := computePhi_same hL ra
  have pb := computePhi_same hL rb
  have ta : Same (computeTheta (cyDeg2rad x) (computePhi (cyDeg2rad x))) (computeTheta (cyDeg2rad a) (computePhi (cyDeg2rad a))) (3 * 10 ^ 10) :=
    ra.sub pa (by norm_num) (l _ (by norm_num))
  have tb : Same (computeTheta (cyDeg2rad y) (computePhi (cyDeg2rad y))) (computeTheta (cyDeg2rad b) (computePhi (cyDeg2rad b))) (3 * 10 ^ 10) :=
    rb.sub pb (by norm_num) (l _ (by norm_num))
  have phi : Same ((computePhi (cyDeg2rad x) + computePhi (cyDeg2rad y)) / 2) ((computePhi (cyDeg2rad a) + computePhi (cyDeg2rad b)) / 2) 30 :=
    (pa.add pb (C := 20) (by norm_num) (l _ (by norm_num))).div two two_ge (by norm_num) (by norm_num) (l _ (by norm_num))
  have zeta := computeZeta_same hL phi
  have theta := zeta.sub phi (C := 60) (by norm_num) (l _ (by norm_num))
  have den := Same.ite (c := Arith.eq (computeTheta (cyDeg2rad a) (computePhi (cyDeg2rad a))) (computeTheta (cyDeg2rad b) (computePhi (cyDeg2rad b))))
    (ta.mul two (C := 2 * 10 ^ 11) (by norm_num) (l _ (by norm_num))) (ta.sub tb (by norm_num) (l _ (by norm_num)))
  have num := ((ta.add tb (C := 10 ^ 11) (by norm_num) (l _ (by norm_num))).div two two_ge (C := 2 * 10 ^ 11) (by norm_num) (by norm_num)
    (l _ (by norm_num))).sub theta (C := 10 ^ 12) (by norm_num) (l _ (by norm_num))
  have m4 : 3 ≤ m.mag (4 : α) := by
    have := (m.mag_ofInt 4).2
    norm_num at this
    exact this
  have e := sag_same hL w hw phi zeta
  have top := (four.mul e (C := 1000) (by norm_num) (l _ (by norm_num))).mul (zeta.sin (l _ (by norm_num))) (C := 2500) (by norm_num) (l _ (by norm_num))
  have heq := ta.eq_ tb
  unfold expansionAlignment at he ha ⊢
  simp only at he ha ⊢
  rw [heq]
  constructor
  · have hq : Same _ _ (10 ^ 18 : ℝ) := num.div' den ?_ (l _ (by norm_num))
    · have := four.mul hq (C := 10 ^ 19) (by norm_num) (l _ (by norm_num))
      exact ⟨this.1, he⟩
    · have := (m.mag_mul _ _).2.trans he
      refine le_of_mul_le_mul_left (le_trans ?_ this |>.trans (by norm_num : (10 : ℝ) ^ 17 ≤ 1 * 10 ^ 18)) one_pos
      refine le_trans ?_ (mul_le_mul_of_nonneg_left (mul_le_mul_of_nonneg_right m4 (m.mag_nonneg _)) (by norm_num))
      have := m.mag_nonneg
      refine le_trans (b := 0.75 * 3 * _) ?_ (by rw [mul_assoc])
      exact mul_le_mul_of_nonneg_right (by norm_num) (this _)
  · have hq : Same _ _ (10 ^ 18 : ℝ) := top.div' den ?_ (l _ (by norm_num))
    · have := hq.toFloating (C := 10 ^ 19) (by norm_num) (l _ (by norm_num))
      exact ⟨this.1, ha⟩
    · exact le_of_mul_le_mul_left (((m.mag_toFloating _).2.trans ha).trans (by norm_num : (10 : ℝ) ^ 17 ≤ 0.75 * 10 ^ 18)) (by norm_num)

/-! ### weights and positions -/

theorem one_same : Same (1 : Ov L) 1 2 := Same.ofNat 1 (by norm_num) (leL hL (by norm_num))

theorem atrackAscan_same {ce ca : Ov L} {e l : α} (f : Nat) (h2 : 2 ≤ f) (h20 : f ≤ 20) (hx : Same x a 63) (hy : Same y b 63)
    (he : Same ce e (10 ^ 17)) (ha : Same ca l (10 ^ 17)) :
    Same (atrackAscan f x y ce ca).1 (atrackAscan f a b e l).1 53 ∧ Same (atrackAscan f x y ce ca).2 (atrackAscan f a b e l).2 (2 * 10 ^ 21) := by
  have l (C : ℝ) (h : C ≤ 10 ^ 37) : C ≤ L.bound := leL hL h
  have f2 : (2 : ℝ) ≤ f := by exact_mod_cast h2
  have f20 : (f : ℝ) ≤ 20 := by exact_mod_cast h20
  have fa : |((f : ℤ) : ℝ)| = f := by rw [Int.cast_natCast, abs_of_nonneg (by positivity)]
  have hf : Same (Arith.ofInt (f : ℤ) : Ov L) (Arith.ofInt (f : ℤ)) 25 := Same.ofInt _ (by rw [fa]; linarith) (l _ (by norm_num))
  have hD : 1.5 ≤ m.mag (Arith.ofInt (f : ℤ) : α) := by
    have := (m.mag_ofInt f).2
    rw [fa] at this
    linarith
  have ss := hx.div hf hD (C := 53) (by norm_num) (by norm_num) (l _ (by norm_num))
  have st := hy.div hf hD (C := 53) (by norm_num) (by norm_num) (l _ (by norm_num))
  have one := one_same (m := m) hL
  have w (v : Ov L) (u : α) (hv : Same v u 53) (c : Ov L) (d : α) (hc : Same c d (10 ^ 17)) : Same (v * (1 - v) * c) (u * (1 - u) * d) (6 * 10 ^ 20) :=
    (hv.mul (one.sub hv (C := 69) (by norm_num) (l _ (by norm_num))) (C := 4600) (by norm_num) (l _ (by norm_num))).mul hc (by norm_num)
      (l _ (by norm_num))
  exact ⟨st, (ss.add (w _ _ ss _ _ he) (C := 8 * 10 ^ 20) (by norm_num) (l _ (by norm_num))).add (w _ _ st _ _ ha) (by norm_num) (l _ (by norm_num))⟩

theorem fineComponent_same {t s v1 v2 v3 v4 : Ov L} {t' s' w1 w2 w3 w4 : α} (ht : Same t t' 53) (hs : Same s s' (2 * 10 ^ 21))
    (h1 : Same v1 w1 (10 ^ 8)) (h2 : Same v2 w2 (10 ^ 8)) (h3 : Same v3 w3 (10 ^ 8)) (h4 : Same v4 w4 (10 ^ 8)) :
    Same (fineComponent t s v1 v2 v3 v4) (fineComponent t' s' w1 w2 w3 w4) (7 * 10 ^ 35) := by
  have l (C : ℝ) (h : C ≤ 10 ^ 37) : C ≤ L.bound := leL hL h
  have one := one_same (m := m) hL
  have os := one.sub hs (C := 3 * 10 ^ 21) (by norm_num) (l _ (by norm_num))
  have ot := one.sub ht (C := 70) (by norm_num) (l _ (by norm_num))
  have mix (v v' : Ov L) (u u' : α) (h : Same v u (10 ^ 8)) (h' : Same v' u' (10 ^ 8)) :
      Same ((1 - s) * v + s * v') ((1 - s') * u + s' * u') (10 ^ 30) :=
    (os.mul h (C := 4 * 10 ^ 29) (by norm_num) (l _ (by norm_num))).add (hs.mul h' (C := 3 * 10 ^ 29) (by norm_num) (l _ (by norm_num)))
      (by norm_num) (l _ (by norm_num))
  exact (ot.mul (mix _ _ _ _ h1 h2) (C := 10 ^ 32) (by norm_num) (l _ (by norm_num))).add
    (ht.mul (mix _ _ _ _ h4 h3) (C := 10 ^ 32) (by norm_num) (l _ (by norm_num))) (by norm_num) (l _ (by norm_num))

theorem int_same (n : ℤ) (h : |n| ≤ 40) : Same (Arith.ofInt n : Ov L) (Arith.ofInt n) 50 := by
  have h' : |(n : ℝ)| ≤ 40 := by exact_mod_cast h
  exact Same.ofInt _ (by linarith) (leL hL (by norm_num))

theorem coordX1km_same (cfg : Cfg) (hf : 2 ≤ cfg.f ∧ cfg.f ≤ 20) {i : Nat} (hi : i < cfg.fineWidth) :
    Same (coordX1km cfg i : Ov L) (coordX1km cfg i) 50 := by
  unfold coordX1km
  split
  · refine int_same hL _ ?_
    rw [abs_of_nonneg (by positivity)]
    norm_cast
    omega
  · refine int_same hL _ ?_
    rw [abs_of_nonneg (by positivity)]
    have := Nat.mod_lt i (by omega : 0 < cfg.f)
    norm_cast
    omega

theorem coordX5km_same (cfg : Cfg) (hf : 2 ≤ cfg.f ∧ cfg.f ≤ 20) {i : Nat} :
    Same (coordX5km cfg i : Ov L) (coordX5km cfg i) 50 := by
  have hm : Same (Arith.ofInt (((i : Int) - 2) % (cfg.f : Int)) : Ov L) (Arith.ofInt (((i : Int) - 2) % (cfg.f : Int))) 50 := by
    refine int_same hL _ ?_
    have h1 := Int.emod_nonneg ((i : Int) - 2) (show (cfg.f : Int) ≠ 0 by omega)
    have h2 := Int.emod_lt_of_pos ((i : Int) - 2) (show (0 : Int) < cfg.f by omega)
    rw [abs_of_nonneg h1]
    omega
  have h1 : Same (Arith.ofInt (-1) : Ov L) (Arith.ofInt (-1)) 50 := int_same hL _ (by norm_num)
  have h2 : Same (Arith.ofInt (-2) : Ov L) (Arith.ofInt (-2)) 50 := int_same hL _ (by norm_num)
  unfold coordX5km
  simp only
  split_ifs
  · exact int_same hL 6 (by norm_num)
  · exact int_same hL 5 (by norm_num)
  · exact h1
  · exact h2
  · exact hm
  · refine int_same hL _ ?_
    rw [abs_le]
    omega
  · exact h1
  · exact h2
  · exact hm

theorem coordY1km_same (cfg : Cfg) (hl : cfg.len = 10) (hf : 2 ≤ cfg.f ∧ cfg.f ≤ 4) {i : Nat} (hi : i < cfg.len * cfg.f) :
    Same (coordY1km cfg i : Ov L) (coordY1km cfg i) 50 := by
  have l (C : ℝ) (h : C ≤ 10 ^ 37) : C ≤ L.bound := leL hL h
  have half : Same (Arith.lit 5 1 : Ov L) (Arith.lit 5 1) 1 := Same.lit _ _ (by norm_num) (l _ (by norm_num))
  have small (n : ℤ) (h : |n| ≤ 4) : Same (Arith.ofInt n : Ov L) (Arith.ofInt n) 5 := by
    have h' : |(n : ℝ)| ≤ 4 := by exact_mod_cast h
    exact Same.ofInt _ (by linarith) (l _ (by norm_num))
  have hh : cfg.f / 2 ≤ 2 := by omega
  unfold coordY1km
  simp only
  rw [hl] at hi ⊢
  split_ifs with h1 h2
  · exact (half.add (small _ (by rw [abs_le]; omega)) (C := 8) (by norm_num) (l _ (by norm_num))).sub
      (small _ (by rw [abs_le]; omega)) (by norm_num) (l _ (by norm_num))
  · exact ((small _ (by rw [abs_le]; omega)).add half (C := 8) (by norm_num) (l _ (by norm_num))).add
      (small _ (by rw [abs_le]; omega)) (by norm_num) (l _ (by norm_num))
  · have := Nat.mod_lt (i + cfg.f / 2) (by omega : 0 < cfg.f)
    exact (small _ (by rw [abs_le]; omega)).add half (by norm_num) (l _ (by norm_num))

end
end Verif.Ov
