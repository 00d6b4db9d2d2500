import Verif.Props.ModisOrder
import Verif.Props.GeoArc
import Verif.Props.ModisSimpleNum
import Verif.Proofs.ScanGeom

/-!
# C104: the zenith-angle expansion reproduces the viewing geometry

The scan angle of the instrument changes uniformly along a row; the angle at the centre of the Earth does not.  The expansion
coefficient (_modis_interpolator.pyx:41-70) makes the scan weight the parabola through the two tie points and the point half way
between them *in scan angle*: there the position is exact, elsewhere the error is of third order in the scan angle between the tie
points.
-/

namespace Verif.Props
open Verif Verif.Modis Verif.Spec.Modis Verif.Geo Verif.Spec FP Real

/-! ### the coefficient -/

private theorem rad_70 {a : ℝ} (ha : |a| ≤ 70) : |rad a| ≤ π / 2 := by
  have hpi := pi_pos
  unfold rad
  rw [abs_mul, abs_of_pos (show (0 : ℝ) < π / 180 by positivity)]
  calc _ ≤ 70 * (π / 180) := by gcongr
    _ ≤ _ := by linarith

theorem seen_phi {φ θ a : ℝ} (ha : |a| ≤ 70) (h : Seen Rk Hk φ θ (rad a)) :
    φ = phiR (rad a) ∧ θ = rad a - phiR (rad a) ∧ |φ| ≤ mTop := by
  obtain ⟨e1, e2⟩ := seen_iff h
  have h1 := abs_lt.1 h.1
  have hs : sin (rad a) = kap⁻¹ * sin φ := by
    have := abs_le.1 (abs_sin_70 ha)
    rw [e1]
    by_cases hc : |kap⁻¹ * sin φ| ≤ 1
    · exact sin_arcsin (abs_le.1 hc).1 (abs_le.1 hc).2
    · exfalso
      rw [not_le, lt_abs] at hc
      rcases hc with hc | hc
      · have : rad a = π / 2 := by rw [e1]; exact arcsin_of_one_le hc.le
        have h2 := (abs_lt.1 h.2.1).2
        linarith
      · have : rad a = -(π / 2) := by rw [e1]; exact arcsin_of_le_neg_one (by linarith)
        have h2 := (abs_lt.1 h.2.1).1
        linarith
  have hφ : φ = phiR (rad a) := by
    unfold phiR
    rw [hs, mul_inv_cancel_left₀ kap_pos.ne', arcsin_sin h1.1.le h1.2.le]
  refine ⟨hφ, by rw [← hφ, e2, ← e1], ?_⟩
  rw [hφ]
  have := phiR_70 ((abs_sin_70 ha).trans (by norm_num))
  linarith

/-- a scan angle between two others -/
theorem scan_between {x y s : ℝ} (hx : |x| ≤ mTop) (hy : |y| ≤ mTop) (s0 : 0 ≤ s) (s1 : s ≤ 1) : |x + s * (y - x)| ≤ mTop := by
  rw [abs_le] at hx hy ⊢
  constructor <;> nlinarith [hx.1, hx.2, hy.1, hy.2]

/-- a scan angle of a line of sight with a zenith angle of at most 70 degrees -/
theorem scan_view {φ θ ζ : ℝ} (h : Seen Rk Hk φ θ ζ) (hζ : |ζ| ≤ rad 70) : |φ| ≤ mTop := by
  have hpi := pi_pos
  have e : ζ = rad (ζ * (180 / π)) := by unfold rad; field_simp
  refine (seen_phi (a := ζ * (180 / π)) ?_ (by rwa [← e])).2.2
  rw [abs_mul, abs_of_pos (show (0 : ℝ) < 180 / π by positivity), mul_div_assoc', div_le_iff₀ hpi]
  unfold rad at hζ
  linarith

private theorem coefficient_core (w : Nat) (hw : w ≤ 5) {a b φa φb θa θb s θ ζ : ℝ} (ha : |a| ≤ 70) (hb : |b| ≤ 70) (h0 : ¬ (a = 0 ∧ b = 0))
    (sa : Seen Rk Hk φa θa (rad a)) (sb : Seen Rk Hk φb θb (rad b)) (ms : |φa + s * (φb - φa)| ≤ mTop)
    (sp : Seen Rk Hk (φa + s * (φb - φa)) θ ζ) :
    ∃ ce, (expansionAlignment w (val a : FP ℝ) (val b)).1 = val ce ∧
      |θa + (s + s * (1 - s) * ce) * (θb - θa) - θ| ≤ 18 * |s * (s - 1 / 2) * (s - 1)| * |φb - φa| ^ 3 := by
  have hex := Mx.expansionAlignment_exact w hw ha hb (fun e e0 => h0 ⟨e0, e ▸ e0⟩)
  simp only at hex
  rw [hex]
  refine ⟨_, rfl, ?_⟩
  obtain ⟨pa, ta, ma⟩ := seen_phi ha sa
  obtain ⟨pb, tb, mb⟩ := seen_phi hb sb
  have za : zetaR φa - φa = θa := by rw [pa, ta, zeta_phi (rad_70 ha)]
  have zb : zetaR φb - φb = θb := by rw [pb, tb, zeta_phi (rad_70 hb)]
  have hq := theta_parab ma mb ms
  rw [za, zb, ← (seen_iff sp).2, abs_sub_comm] at hq
  rw [← ta, ← tb, ← pa, ← pb]
  refine le_trans (le_of_eq ?_) hq
  congr 1
  unfold Quad.parab
  by_cases e : a = b
  · subst e
    have e1 : φb = φa := pb.trans pa.symm
    have e2 : θb = θa := tb.trans ta.symm
    rw [e1, e2, show (φa + φa) / 2 = φa by ring, za]
    ring
  · have hne : θa - θb ≠ 0 := by
      intro e'
      have h2 : a * (π / 180) = b * (π / 180) := theta_inj (ta.symm.trans ((sub_eq_zero.1 e').trans tb))
      exact e (mul_right_cancel₀ (by positivity) h2)
    rw [if_neg e]
    field_simp
    ring

/-- **C104 (coefficient)**: two tie points with zenith angles `a` and `b` degrees, of at most 70, not both zero, on the same side of
the nadir, seen at the scan angles `φa` and `φb` and at the angles `θa` and `θb` from the nadir as seen from the centre of the Earth.
A point seen at the scan angle a fraction `s` of the way between the two is at the angle `θ`.  The weight of the code,
`s + s (1 - s)` times the expansion coefficient, places it at an angle that differs from `θ` by at most
`18 |s (s - 1/2) (s - 1)|` times the cube of the difference of the scan angles. -/
theorem C104_coefficient (w : Nat) (hw : w ≤ 5) {a b φa φb θa θb s θ ζ : ℝ} (ha : |a| ≤ 70) (hb : |b| ≤ 70) (h0 : ¬ (a = 0 ∧ b = 0))
    (sa : Seen Rk Hk φa θa (rad a)) (sb : Seen Rk Hk φb θb (rad b)) (s0 : 0 ≤ s) (s1 : s ≤ 1)
    (sp : Seen Rk Hk (φa + s * (φb - φa)) θ ζ) :
    ∃ ce, (expansionAlignment w (val a : FP ℝ) (val b)).1 = val ce ∧
      |θa + (s + s * (1 - s) * ce) * (θb - θa) - θ| ≤ 18 * |s * (s - 1 / 2) * (s - 1)| * |φb - φa| ^ 3 :=
  coefficient_core w hw ha hb h0 sa sb (scan_between (seen_phi ha sa).2.2 (seen_phi hb sb).2.2 s0 s1) sp

/-- **C104 (beyond)**: the same for a point beyond the two tie points, at any multiple `s` of their difference (the pixels before the first
and behind the last column of tie points), seen under a zenith angle of at most 70 degrees. -/
theorem C104_beyond (w : Nat) (hw : w ≤ 5) {a b φa φb θa θb s θ ζ : ℝ} (ha : |a| ≤ 70) (hb : |b| ≤ 70) (h0 : ¬ (a = 0 ∧ b = 0))
    (sa : Seen Rk Hk φa θa (rad a)) (sb : Seen Rk Hk φb θb (rad b)) (sp : Seen Rk Hk (φa + s * (φb - φa)) θ ζ) (hζ : |ζ| ≤ rad 70) :
    ∃ ce, (expansionAlignment w (val a : FP ℝ) (val b)).1 = val ce ∧
      |θa + (s + s * (1 - s) * ce) * (θb - θa) - θ| ≤ 18 * |s * (s - 1 / 2) * (s - 1)| * |φb - φa| ^ 3 :=
  coefficient_core w hw ha hb h0 sa sb (scan_view sp hζ) sp

/-- the angles of a tie point with a zenith angle of at most 70 degrees -/
theorem seen_zenith {a : ℝ} (ha : |a| ≤ 70) : Seen Rk Hk (phiR (rad a)) (rad a - phiR (rad a)) (rad a) := by
  have := seen_of (φ := phiR (rad a)) (by have := phiR_70 ((abs_sin_70 ha).trans (by norm_num)); linarith)
  rwa [zeta_phi (rad_70 ha)] at this

/-- between two scan angles -/
private theorem seen_between {φa φb s : ℝ} (ha : |φa| ≤ mTop) (hb : |φb| ≤ mTop) (s0 : 0 ≤ s) (s1 : s ≤ 1) :
    ∃ θ ζ, Seen Rk Hk (φa + s * (φb - φa)) θ ζ := by
  refine ⟨_, _, seen_of ?_⟩
  rw [abs_le] at *
  constructor <;> nlinarith [ha.1, ha.2, hb.1, hb.2]

private theorem phi_mTop {a : ℝ} (ha : |a| ≤ 70) : |phiR (rad a)| ≤ mTop := by
  have := phiR_70 ((abs_sin_70 ha).trans (by norm_num)); linarith

/-- zenith angles 60 and 61 degrees, a quarter of the way: the scan angles differ by less than 0.0158 -/
example : ∃ φa φb θa θb θ ζ ce, Seen Rk Hk φa θa (rad 60) ∧ Seen Rk Hk φb θb (rad 61) ∧ Seen Rk Hk (φa + 1 / 4 * (φb - φa)) θ ζ ∧
    (expansionAlignment 1 (val 60 : FP ℝ) (val 61)).1 = val ce ∧
    |θa + (1 / 4 + 1 / 4 * (1 - 1 / 4) * ce) * (θb - θa) - θ| ≤ 18 * (3 / 64) * 0.0158 ^ 3 := by
  have ha : |(60 : ℝ)| ≤ 70 := by norm_num [abs_le]
  have hb : |(61 : ℝ)| ≤ 70 := by norm_num [abs_le]
  obtain ⟨θ, ζ, sp⟩ := seen_between (phi_mTop ha) (phi_mTop hb) (s := 1 / 4) (by norm_num) (by norm_num)
  obtain ⟨ce, h1, h2⟩ := C104_coefficient 1 (by norm_num) ha hb (by norm_num) (seen_zenith ha) (seen_zenith hb) (by norm_num) (by norm_num) sp
  refine ⟨_, _, _, _, θ, ζ, ce, seen_zenith ha, seen_zenith hb, sp, h1, h2.trans ?_⟩
  have e : |(1 / 4 : ℝ) * (1 / 4 - 1 / 2) * (1 / 4 - 1)| = 3 / 64 := by norm_num [abs_of_pos]
  have hl := phiR_lip (rad 61) (rad 60)
  have hr : |rad 61 - rad 60| = π / 180 := by
    unfold rad
    rw [show (61 : ℝ) * (π / 180) - 60 * (π / 180) = π / 180 by ring, abs_of_pos (by positivity)]
  have hp : |phiR (rad 61) - phiR (rad 60)| ≤ 0.0158 := by
    rw [hr] at hl
    have h3 : kap * (π / 180) ≤ 0.89986 * (3.1416 / 180) := by
      have := pi_lt_d4
      exact mul_le_mul kap_bounds.2 (by linarith) (by positivity) (by norm_num)
    norm_num at h3 ⊢
    linarith
  rw [e]
  gcongr

/-- smaller scan angles have smaller zenith angles -/
theorem zeta_view {φ c : ℝ} (c0 : 0 ≤ c) (hc : c ≤ 70) (h : |φ| ≤ phiR (rad c)) : |zetaR φ| ≤ rad c := by
  have hc' : |c| ≤ 70 := by rwa [abs_of_nonneg c0]
  have z := zeta_phi (rad_70 hc')
  have mono : ∀ {x y : ℝ}, -(π / 2) ≤ x → x ≤ y → y ≤ π / 2 → zetaR x ≤ zetaR y := by
    intro x y g1 g2 g3
    unfold zetaR
    exact monotone_arcsin (mul_le_mul_of_nonneg_left (sin_le_sin_of_le_of_le_pi_div_two g1 g3 g2) (inv_nonneg.2 kap_pos.le))
  have top := abs_lt.1 (seen_zenith hc').1
  obtain ⟨m1, m2⟩ := abs_le.1 h
  rw [abs_le]
  constructor
  · have := mono (by linarith) m1 (by linarith)
    have e : zetaR (-phiR (rad c)) = -rad c := by
      have : zetaR (-phiR (rad c)) = -zetaR (phiR (rad c)) := by unfold zetaR; rw [sin_neg, mul_neg, arcsin_neg]
      rw [this, z]
    linarith
  · have := mono (by linarith) m2 (by linarith)
    linarith

/-- a scan angle less than half the way before a tie point with a zenith angle between 30 and 69 degrees, the next tie point being less than a
degree further out -/
theorem scan_before {a b s : ℝ} (ha : 30 ≤ a) (hab : a ≤ b) (hb : b ≤ 70) (hd : b - a ≤ 1) (s0 : s ≤ 0) (s1 : -1 / 2 ≤ s) :
    |phiR (rad a) + s * (phiR (rad b) - phiR (rad a))| ≤ phiR (rad a) := by
  have hpi := pi_pos
  have hpi3 := pi_gt_three
  have hk := kap_bounds
  have hle : phiR (rad a) ≤ phiR (rad b) := by
    unfold phiR
    refine monotone_arcsin (mul_le_mul_of_nonneg_left (sin_le_sin_of_le_of_le_pi_div_two ?_ ?_ ?_) kap_pos.le) <;> unfold rad <;> nlinarith
  have h1 : phiR (rad b) - phiR (rad a) ≤ 0.02 := by
    refine (le_abs_self _).trans ((phiR_lip (rad b) (rad a)).trans ?_)
    have e : |rad b - rad a| = (b - a) * (π / 180) := by
      unfold rad
      rw [← sub_mul, abs_of_nonneg (mul_nonneg (by linarith) (by positivity))]
    rw [e]
    have := pi_lt_d2
    have h4 : (b - a) * (π / 180) ≤ 1 * (3.15 / 180) := mul_le_mul hd (by linarith) (by positivity) (by norm_num)
    have h3 : kap * ((b - a) * (π / 180)) ≤ 1 * (1 * (3.15 / 180)) :=
      mul_le_mul (by linarith) h4 (mul_nonneg (by linarith) (by positivity)) (by norm_num)
    linarith
  have h2 : 0.4 ≤ phiR (rad a) := by
    have h4 : 1 / 2 ≤ sin (rad a) := by
      rw [← sin_pi_div_six]
      exact sin_le_sin_of_le_of_le_pi_div_two (by linarith) (by unfold rad; nlinarith) (by unfold rad; nlinarith)
    have h3 : 0.4 ≤ kap * sin (rad a) := by nlinarith
    unfold phiR
    rw [le_arcsin_iff_sin_le' ⟨by linarith, by linarith⟩]
    exact (sin_le (by norm_num)).trans h3
  rw [abs_le]
  constructor <;> nlinarith

/-- zenith angles 60 and 61 degrees, a fifth of the way before the first tie point -/
example : ∃ φa φb θa θb θ ζ ce, Seen Rk Hk φa θa (rad 60) ∧ Seen Rk Hk φb θb (rad 61) ∧ Seen Rk Hk (φa + -1 / 5 * (φb - φa)) θ ζ ∧
    (expansionAlignment 1 (val 60 : FP ℝ) (val 61)).1 = val ce ∧
    |θa + (-1 / 5 + -1 / 5 * (1 - -1 / 5) * ce) * (θb - θa) - θ| ≤ 18 * |(-1 / 5 : ℝ) * (-1 / 5 - 1 / 2) * (-1 / 5 - 1)| * |φb - φa| ^ 3 := by
  have ha : |(60 : ℝ)| ≤ 70 := by norm_num [abs_le]
  have hb : |(61 : ℝ)| ≤ 70 := by norm_num [abs_le]
  have ms := scan_before (a := 60) (b := 61) (s := -1 / 5) (by norm_num) (by norm_num) (by norm_num) (by norm_num) (by norm_num) (by norm_num)
  have sp := seen_of (ms.trans ((le_abs_self _).trans (phi_mTop ha)))
  obtain ⟨ce, e1, e2⟩ := C104_beyond 1 (by norm_num) ha hb (by norm_num) (seen_zenith ha) (seen_zenith hb) sp
    ((zeta_view (by norm_num) (by norm_num) ms).trans (by have := pi_pos; unfold rad; linarith))
  exact ⟨_, _, _, _, _, _, ce, seen_zenith ha, seen_zenith hb, sp, e1, e2⟩

/-- half way between the two scan angles the position is exact -/
theorem C104_half (w : Nat) (hw : w ≤ 5) {a b φa φb θa θb θ ζ : ℝ} (ha : |a| ≤ 70) (hb : |b| ≤ 70) (h0 : ¬ (a = 0 ∧ b = 0))
    (sa : Seen Rk Hk φa θa (rad a)) (sb : Seen Rk Hk φb θb (rad b)) (sp : Seen Rk Hk ((φa + φb) / 2) θ ζ) :
    ∃ ce, (expansionAlignment w (val a : FP ℝ) (val b)).1 = val ce ∧ θa + (1 / 2 + 1 / 2 * (1 - 1 / 2) * ce) * (θb - θa) = θ := by
  obtain ⟨ce, h1, h2⟩ := C104_coefficient w hw (s := 1 / 2) ha hb h0 sa sb (by norm_num) (by norm_num)
    (by rw [show φa + 1 / 2 * (φb - φa) = (φa + φb) / 2 by ring]; exact sp)
  refine ⟨ce, h1, ?_⟩
  norm_num at h2
  norm_num
  linarith

example : ∃ θ ζ ce, Seen Rk Hk ((phiR (rad 60) + phiR (rad 61)) / 2) θ ζ ∧
    (expansionAlignment 1 (val 60 : FP ℝ) (val 61)).1 = val ce ∧
    rad 60 - phiR (rad 60) + (1 / 2 + 1 / 2 * (1 - 1 / 2) * ce) * ((rad 61 - phiR (rad 61)) - (rad 60 - phiR (rad 60))) = θ := by
  have ha : |(60 : ℝ)| ≤ 70 := by norm_num [abs_le]
  have hb : |(61 : ℝ)| ≤ 70 := by norm_num [abs_le]
  obtain ⟨θ, ζ, sp⟩ := seen_between (phi_mTop ha) (phi_mTop hb) (s := 1 / 2) (by norm_num) (by norm_num)
  rw [show phiR (rad 60) + 1 / 2 * (phiR (rad 61) - phiR (rad 60)) = (phiR (rad 60) + phiR (rad 61)) / 2 by ring] at sp
  obtain ⟨ce, h1, h2⟩ := C104_half 1 (by norm_num) ha hb (by norm_num) (seen_zenith ha) (seen_zenith hb) sp
  exact ⟨θ, ζ, ce, sp, h1, h2⟩

/-! ### one cell -/

/-- the point of the scan at the angle `θ` from the nadir: `e` the direction of the nadir, `f` the direction of the scan -/
noncomputable def scanPoint (R : ℝ) (e f : ℝ × ℝ × ℝ) (θ : ℝ) : ℝ × ℝ × ℝ :=
  (R * (cos θ * e.1 + sin θ * f.1), R * (cos θ * e.2.1 + sin θ * f.2.1), R * (cos θ * e.2.2 + sin θ * f.2.2))

/-- the plane of the scan -/
def Orthonormal (e f : ℝ × ℝ × ℝ) : Prop := dot e e = 1 ∧ dot f f = 1 ∧ dot e f = 0

theorem dot_scanPoint {R : ℝ} {e f : ℝ × ℝ × ℝ} (h : Orthonormal e f) (x y : ℝ) :
    dot (scanPoint R e f x) (scanPoint R e f y) = R ^ 2 * cos (x - y) := by
  obtain ⟨h1, h2, h3⟩ := h
  rw [cos_sub]
  simp only [dot, scanPoint] at *
  linear_combination R ^ 2 * (cos x * cos y) * h1 + R ^ 2 * (sin x * sin y) * h2 + R ^ 2 * (cos x * sin y + sin x * cos y) * h3

private theorem scan_arc (R : ℝ) (e f : ℝ × ℝ × ℝ) {x y : ℝ} (hd : sin (y - x) ≠ 0) (t : ℝ) :
    arcPoint |y - x| (scanPoint R e f x) (scanPoint R e f y) t = scanPoint R e f (x + t * (y - x)) := by
  obtain ⟨δ, rfl⟩ : ∃ δ, y = x + δ := ⟨y - x, by ring⟩
  rw [show x + δ - x = δ by ring] at *
  have hc : (sin ((1 - t) * δ) * cos x + sin (t * δ) * cos (x + δ)) / sin δ = cos (x + t * δ) := by
    rw [div_eq_iff hd, show (1 - t) * δ = δ - t * δ by ring, sin_sub, cos_add, cos_add]
    ring
  have hs : (sin ((1 - t) * δ) * sin x + sin (t * δ) * sin (x + δ)) / sin δ = sin (x + t * δ) := by
    rw [div_eq_iff hd, show (1 - t) * δ = δ - t * δ by ring, sin_sub, sin_add, sin_add]
    ring
  have key : ∀ u v : ℝ, (sin ((1 - t) * |δ|) * (R * (cos x * u + sin x * v)) + sin (t * |δ|) * (R * (cos (x + δ) * u + sin (x + δ) * v))) / sin |δ|
      = R * (cos (x + t * δ) * u + sin (x + t * δ) * v) := by
    intro u v
    rw [← hc, ← hs]
    rcases abs_choice δ with h | h <;> rw [h]
    · field_simp
      ring
    · rw [mul_neg, mul_neg, sin_neg, sin_neg, sin_neg]
      field_simp
      ring
  simp only [arcPoint, scanPoint]
  exact Prod.ext (key _ _) (Prod.ext (key _ _) (key _ _))

/-- a point of the chord between two points of the scan is in the direction of a point of the scan, at nearly the same fraction -/
theorem scan_chord (R : ℝ) (e f : ℝ × ℝ × ℝ) {x y t : ℝ} (hd : |y - x| ≤ 1 / 2) (t0 : 0 ≤ t) (t1 : t ≤ 1) :
    ∃ β ρ, 0 < ρ ∧ chordPoint (scanPoint R e f x) (scanPoint R e f y) t = scale ρ (scanPoint R e f β) ∧
      |β - (x + t * (y - x))| ≤ |y - x| ^ 3 / 55 := by
  have hpi := pi_gt_three
  rcases eq_or_ne x y with rfl | hne
  · refine ⟨x, 1, one_pos, ?_, by simp⟩
    simp only [chordPoint, scale]
    exact Prod.ext (by ring) (Prod.ext (by ring) (by ring))
  · have hpos : 0 < |y - x| := abs_pos.2 (sub_ne_zero.2 hne.symm)
    have hsin : sin (y - x) ≠ 0 := by
      have := abs_le.1 hd
      intro h
      rcases abs_choice (y - x) with h' | h'
      · have := sin_pos_of_pos_of_lt_pi hpos (by linarith)
        rw [h', h] at this
        exact lt_irrefl _ this
      · have := sin_pos_of_pos_of_lt_pi hpos (by linarith)
        rw [h', sin_neg, h] at this
        simp at this
    obtain ⟨hρ, hch⟩ := chord_arc (θ := |y - x|) (t := t) hpos (by linarith) (scanPoint R e f x) (scanPoint R e f y)
    rw [scan_arc R e f hsin] at hch
    obtain ⟨hf, -, -⟩ := arcFraction_near (θ := |y - x|) (t := t) hpos hd t0 t1
    refine ⟨_, _, hρ, hch, ?_⟩
    rw [show x + arcFraction |y - x| t * (y - x) - (x + t * (y - x)) = (arcFraction |y - x| t - t) * (y - x) by ring, abs_mul]
    calc _ ≤ |y - x| ^ 2 / 55 * |y - x| := by gcongr
      _ = _ := by ring

theorem cubic_le {s : ℝ} (s0 : 0 ≤ s) (s1 : s ≤ 1) : |s * (s - 1 / 2) * (s - 1)| ≤ 0.0482 := by
  rw [abs_le]
  constructor
  · nlinarith [mul_nonneg (sq_nonneg (s - 1 / 2 - 0.2887)) s0]
  · nlinarith [mul_nonneg (sq_nonneg (s - 1 / 2 + 0.2887)) (sub_nonneg.2 s1)]

/-- **C104 (cell)**: tie points as in `C104_coefficient`, their zenith angles at most 5 degrees apart.  The point that the weight of the
code makes between the two is in the direction of a point of the scan whose angle from the nadir differs from that of the point seen
at the scan angle `φa + s (φb - φa)` by at most the cube of `φb - φa`. -/
theorem C104_cell (w : Nat) (hw : w ≤ 5) (R : ℝ) (e f : ℝ × ℝ × ℝ) {a b φa φb θa θb s θ ζ : ℝ} (ha : |a| ≤ 70) (hb : |b| ≤ 70)
    (h0 : ¬ (a = 0 ∧ b = 0)) (hg : |a - b| ≤ 5) (sa : Seen Rk Hk φa θa (rad a)) (sb : Seen Rk Hk φb θb (rad b)) (s0 : 0 ≤ s) (s1 : s ≤ 1)
    (sp : Seen Rk Hk (φa + s * (φb - φa)) θ ζ) :
    ∃ ce β ρ, (expansionAlignment w (val a : FP ℝ) (val b)).1 = val ce ∧ 0 ≤ s + s * (1 - s) * ce ∧ s + s * (1 - s) * ce ≤ 1 ∧ 0 < ρ ∧
      |θb - θa| ≤ 0.1 ∧
      chordPoint (scanPoint R e f θa) (scanPoint R e f θb) (s + s * (1 - s) * ce) = scale ρ (scanPoint R e f β) ∧
      |β - θ| ≤ |φb - φa| ^ 3 := by
  obtain ⟨ce, h1, h2⟩ := C104_coefficient w hw ha hb h0 sa sb s0 s1 sp
  obtain ⟨ce', h1', h2'⟩ := C101_expansion w hw ha hb h0 (hg.trans (by norm_num))
  obtain rfl : ce = ce' := by rw [h1, FP.val.injEq] at h1'; exact h1'
  obtain ⟨pa, ta, ma⟩ := seen_phi ha sa
  obtain ⟨pb, tb, mb⟩ := seen_phi hb sb
  have za : zetaR φa - φa = θa := by rw [pa, ta, zeta_phi (rad_70 ha)]
  have zb : zetaR φb - φb = θb := by rw [pb, tb, zeta_phi (rad_70 hb)]
  have hδ : |θb - θa| ≤ 0.8 * |φb - φa| := by
    have := zeta_sub_lip mb ma
    rwa [za, zb] at this
  have hφ : |φb - φa| ≤ 0.09 := by
    have := phiR_lip (rad b) (rad a)
    rw [← pa, ← pb] at this
    have h3 : |rad b - rad a| ≤ 5 * (π / 180) := by
      unfold rad
      rw [← sub_mul, abs_mul, abs_of_pos (show (0 : ℝ) < π / 180 by positivity), abs_sub_comm]
      gcongr
    have hk := kap_bounds.2
    have hk0 := kap_pos
    have hpi := pi_lt_d2
    have h4 : kap * |rad b - rad a| ≤ 1 * (5 * (π / 180)) := mul_le_mul (by linarith) h3 (abs_nonneg _) (by norm_num)
    linarith
  have hδ' : |θb - θa| ≤ 0.1 := by linarith
  have hce : |ce| ≤ 1 := h2'.trans (by linarith)
  obtain ⟨c1, c2⟩ := abs_le.1 hce
  have w0 : 0 ≤ s + s * (1 - s) * ce := by
    have : 0 ≤ s * (1 - s) := mul_nonneg s0 (by linarith)
    nlinarith
  have w1 : s + s * (1 - s) * ce ≤ 1 := by
    have : 0 ≤ s * (1 - s) := mul_nonneg s0 (by linarith)
    nlinarith
  obtain ⟨β, ρ, hρ, hc, hβ⟩ := scan_chord R e f (x := θa) (y := θb) (hδ'.trans (by norm_num)) w0 w1
  refine ⟨ce, β, ρ, h1, w0, w1, hρ, hδ', hc, ?_⟩
  have hq := cubic_le s0 s1
  have h3 : |θb - θa| ^ 3 ≤ (0.8 * |φb - φa|) ^ 3 := pow_le_pow_left₀ (abs_nonneg _) hδ 3
  have hp : 0 ≤ |φb - φa| ^ 3 := by positivity
  have h4 : 18 * |s * (s - 1 / 2) * (s - 1)| * |φb - φa| ^ 3 ≤ 18 * 0.0482 * |φb - φa| ^ 3 := by gcongr
  have := abs_add_le (β - (θa + (s + s * (1 - s) * ce) * (θb - θa))) (θa + (s + s * (1 - s) * ce) * (θb - θa) - θ)
  rw [show β - (θa + (s + s * (1 - s) * ce) * (θb - θa)) + (θa + (s + s * (1 - s) * ce) * (θb - θa) - θ) = β - θ by ring] at this
  have h5 : (0.8 * |φb - φa|) ^ 3 = 0.512 * |φb - φa| ^ 3 := by ring
  rw [h5] at h3
  linarith

example : ∃ θ ζ ce β ρ, Seen Rk Hk (phiR (rad 60) + 1 / 4 * (phiR (rad 61) - phiR (rad 60))) θ ζ ∧
    (expansionAlignment 1 (val 60 : FP ℝ) (val 61)).1 = val ce ∧ 0 < ρ ∧
    chordPoint (scanPoint 1 (1, 0, 0) (0, 1, 0) (rad 60 - phiR (rad 60))) (scanPoint 1 (1, 0, 0) (0, 1, 0) (rad 61 - phiR (rad 61)))
      (1 / 4 + 1 / 4 * (1 - 1 / 4) * ce) = scale ρ (scanPoint 1 (1, 0, 0) (0, 1, 0) β) ∧ |β - θ| ≤ |phiR (rad 61) - phiR (rad 60)| ^ 3 := by
  have ha : |(60 : ℝ)| ≤ 70 := by norm_num [abs_le]
  have hb : |(61 : ℝ)| ≤ 70 := by norm_num [abs_le]
  obtain ⟨θ, ζ, sp⟩ := seen_between (phi_mTop ha) (phi_mTop hb) (s := 1 / 4) (by norm_num) (by norm_num)
  obtain ⟨ce, β, ρ, h1, -, -, h2, -, h3, h4⟩ := C104_cell 1 (by norm_num) 1 (1, 0, 0) (0, 1, 0) ha hb (by norm_num) (by norm_num [abs_le])
    (seen_zenith ha) (seen_zenith hb) (by norm_num) (by norm_num) sp
  exact ⟨θ, ζ, ce, β, ρ, sp, h1, h2, h3, h4⟩

/-! ### the cell of the nadir, uniform weights -/

set_option maxHeartbeats 1000000 in
/-- **C104 (nadir)**: two tie points on different sides of the nadir, with zenith angles of at most 5 degrees, not both zero.  The code only
knows the absolute values of the zenith angles; its weight is still right to third order. -/
theorem C104_nadir (w : Nat) (hw : w ≤ 5) {a b φa φb θa θb s θ ζ : ℝ} (a0 : 0 ≤ a) (ha : a ≤ 5) (b0 : 0 ≤ b) (hb : b ≤ 5)
    (h0 : ¬ (a = 0 ∧ b = 0)) (sa : Seen Rk Hk (-φa) (-θa) (-rad a)) (sb : Seen Rk Hk φb θb (rad b)) (s0 : 0 ≤ s) (s1 : s ≤ 1)
    (sp : Seen Rk Hk (-φa + s * (φb - -φa)) θ ζ) :
    ∃ ce, (expansionAlignment w (val a : FP ℝ) (val b)).1 = val ce ∧
      |-θa + (s + s * (1 - s) * ce) * (θb - -θa) - θ| ≤ 1.2 * (φa + φb) ^ 3 := by
  have hpi := pi_pos
  have ha' : |a| ≤ 70 := by rw [abs_of_nonneg a0]; linarith
  have hb' : |b| ≤ 70 := by rw [abs_of_nonneg b0]; linarith
  have hna' : |-a| ≤ 70 := by rwa [abs_neg]
  have hex := Mx.expansionAlignment_exact w hw ha' hb' (fun e e0 => h0 ⟨e0, e ▸ e0⟩)
  simp only at hex
  rw [hex]
  refine ⟨_, rfl, ?_⟩
  have hneg : ∀ x, phiR (-x) = -phiR x := fun x => by unfold phiR; rw [sin_neg, mul_neg, arcsin_neg]
  rw [show -rad a = rad (-a) by unfold rad; ring] at sa
  obtain ⟨pa, ta, ma⟩ := seen_phi hna' sa
  obtain ⟨pb, tb, mb⟩ := seen_phi hb' sb
  have za : zetaR (-φa) - -φa = -θa := by rw [pa, ta, zeta_phi (rad_70 hna')]
  have zb : zetaR φb - φb = θb := by rw [pb, tb, zeta_phi (rad_70 hb')]
  rw [show rad (-a) = -rad a by unfold rad; ring, hneg, neg_inj] at pa
  rw [show rad (-a) = -rad a by unfold rad; ring, hneg, ← pa, ← neg_add', neg_inj] at ta
  have ta' : θa = rad a - φa := by rw [ta]; linarith
  rw [← pb] at tb
  -- the sizes
  have small : ∀ {x φ : ℝ}, 0 ≤ x → x ≤ 5 → φ = phiR (rad x) → 0 ≤ φ ∧ φ ≤ 0.09 := by
    intro x φ x0 x5 e
    have r0 : 0 ≤ rad x := by unfold rad; positivity
    have r5 : rad x ≤ 5 * (π / 180) := by unfold rad; gcongr
    have h1 := phiR_lip (rad x) 0
    rw [phiR_zero, sub_zero, sub_zero, abs_of_nonneg r0, ← e] at h1
    have hpi := pi_lt_d2
    have hk := kap_bounds.2
    have h2 : kap * rad x ≤ 1 * (5 * (π / 180)) := mul_le_mul (by linarith) r5 r0 (by norm_num)
    refine ⟨?_, by linarith [(abs_le.1 h1).2]⟩
    rw [e]
    exact arcsin_nonneg.2 (mul_nonneg kap_pos.le (sin_nonneg_of_nonneg_of_le_pi r0 (by linarith)))
  obtain ⟨a1, a2⟩ := small a0 ha pa
  obtain ⟨b1, b2⟩ := small b0 hb pb
  have hh : 0 ≤ φa + φb := by linarith
  have sec : ∀ p, -φa ≤ p → p ≤ φb ∨ p ≤ φa → -(φa + φb) ≤ p → |p| ≤ mTop → |zeta2 p| ≤ 0.27 * (φa + φb) := by
    intro p p1 p2 p3 hm
    have hp : |p| ≤ φa + φb := abs_le.2 ⟨p3, by rcases p2 with h | h <;> linarith⟩
    have hp' : |p| ≤ 0.09 := abs_le.2 ⟨by linarith, by rcases p2 with h | h <;> linarith⟩
    have := zeta2_small hm ((abs_sin_le_abs (x := p)).trans (hp'.trans (by norm_num)))
    linarith
  have ma' : |φa| ≤ mTop := by rwa [abs_neg] at ma
  -- the parabola of the true angles
  have hq := theta_parab ma mb (scan_between ma mb s0 s1)
  rw [za, zb, ← (seen_iff sp).2] at hq
  have hcub := cubic_le s0 s1
  have hL : |φb - -φa| = φa + φb := by rw [sub_neg_eq_add, abs_of_nonneg (by linarith)]; ring
  rw [hL] at hq
  have hq' : 18 * |s * (s - 1 / 2) * (s - 1)| * (φa + φb) ^ 3 ≤ 18 * 0.0482 * (φa + φb) ^ 3 := by gcongr
  obtain ⟨p, hp, eN⟩ := theta_second ma mb
  rw [za, zb] at eN
  have hp2 := sec p (by rw [Set.uIcc_of_le (by linarith)] at hp; exact hp.1) (by rw [Set.uIcc_of_le (by linarith)] at hp; exact Or.inl hp.2)
    (by rw [Set.uIcc_of_le (by linarith)] at hp; linarith [hp.1]) (uIcc_mTop ma mb hp)
  obtain ⟨N, hN⟩ : ∃ N, N = (-θa + θb) / 2 - (zetaR ((-φa + φb) / 2) - (-φa + φb) / 2) := ⟨_, rfl⟩
  rw [← hN] at eN
  have hNb : |N| ≤ 0.27 / 8 * (φa + φb) ^ 3 := by
    rw [eN, abs_div, abs_mul, abs_of_pos (by norm_num : (0 : ℝ) < 8), abs_of_nonneg (sq_nonneg (φb - -φa))]
    have := mul_le_mul_of_nonneg_right hp2 (sq_nonneg (φb - -φa))
    rw [div_le_iff₀ (by norm_num)]
    calc _ ≤ _ := this
      _ = _ := by ring
  -- the coefficient
  obtain ⟨ce, hce⟩ : ∃ ce, ce = 4 * (((rad a - phiR (rad a) + (rad b - phiR (rad b))) / 2 -
      (zetaR ((phiR (rad a) + phiR (rad b)) / 2) - (phiR (rad a) + phiR (rad b)) / 2)) /
        if a = b then (rad a - phiR (rad a)) * 2 else rad a - phiR (rad a) - (rad b - phiR (rad b))) := ⟨_, rfl⟩
  rw [← hce]
  rw [← pa, ← pb, ← ta', ← tb] at hce
  have hceb : |ce| ≤ 1.22 * (φa + φb) ^ 2 := by
    obtain ⟨q, hq1, eM⟩ := theta_second ma' mb
    have za' : zetaR φa - φa = θa := by rw [ta', pa, zeta_phi (rad_70 ha')]
    rw [za', zb] at eM
    rw [eM] at hce
    have hq2 := sec q (by rw [Set.mem_uIcc] at hq1; rcases hq1 with h | h <;> linarith [h.1])
      (by rw [Set.mem_uIcc] at hq1; rcases hq1 with h | h; exacts [Or.inl h.2, Or.inr h.2])
      (by rw [Set.mem_uIcc] at hq1; rcases hq1 with h | h <;> linarith [h.1]) (uIcc_mTop ma' mb hq1)
    by_cases e : a = b
    · have : φb = φa := by rw [pa, pb, e]
      rw [hce, this]
      simp
      positivity
    · rw [if_neg e] at hce
      have hx := theta_expand (rad a) (rad b)
      have hy := phiR_lip (rad a) (rad b)
      rw [← pa, ← pb] at hx hy
      rw [← ta', ← tb] at hx
      have hD : 0.1112 * |φb - φa| ≤ |θa - θb| := by
        have hk := kap_bounds
        rw [abs_sub_comm φb]
        have h3 : (1 - kap) / kap * |φa - φb| ≤ (1 - kap) * |rad a - rad b| := by
          rw [div_mul_eq_mul_div, div_le_iff₀ kap_pos]
          have := mul_le_mul_of_nonneg_left hy (show (0 : ℝ) ≤ 1 - kap by linarith)
          linarith
        have h4 : 0.1112 ≤ (1 - kap) / kap := by
          rw [le_div_iff₀ kap_pos]; linarith
        have := mul_le_mul_of_nonneg_right h4 (abs_nonneg (φa - φb))
        linarith
      have hne : 0 < |φb - φa| := by
        rw [abs_pos, sub_ne_zero]
        intro e'
        have e2 : θa = θb := by rw [← za', ← zb, e']
        have h2 : a * (π / 180) = b * (π / 180) := theta_inj (by rw [ta', tb, pa, pb] at e2; exact e2)
        exact e (mul_right_cancel₀ (by positivity) h2)
      rw [hce, abs_mul, abs_div, abs_div, abs_mul, abs_of_pos (by norm_num : (0 : ℝ) < 4), abs_of_pos (by norm_num : (0 : ℝ) < 8),
        abs_of_nonneg (sq_nonneg (φb - φa)), ← sq_abs (φb - φa)]
      have hle : |φb - φa| ≤ φa + φb := abs_le.2 ⟨by linarith, by linarith⟩
      generalize |φb - φa| = Δ at *
      have h5 : |zeta2 q| * Δ ^ 2 / 8 / |θa - θb| ≤ 0.27 * (φa + φb) * Δ ^ 2 / 8 / (0.1112 * Δ) := by gcongr
      have h6 : 0.27 * (φa + φb) * Δ ^ 2 / 8 / (0.1112 * Δ) = 0.27 / (8 * 0.1112) * ((φa + φb) * Δ) := by field_simp
      rw [h6] at h5
      have h7 : (φa + φb) * Δ ≤ (φa + φb) * (φa + φb) := by gcongr
      have h8 := mul_le_mul_of_nonneg_right (show (4 * (0.27 / (8 * 0.1112)) : ℝ) ≤ 1.22 by norm_num) (sq_nonneg (φa + φb))
      have h9 := mul_le_mul_of_nonneg_left h7 (show (0 : ℝ) ≤ 0.27 / (8 * 0.1112) by norm_num)
      calc _ ≤ 4 * (0.27 / (8 * 0.1112) * ((φa + φb) * (φa + φb))) := by gcongr; exact h5.trans h9
        _ = 4 * (0.27 / (8 * 0.1112)) * (φa + φb) ^ 2 := by ring
        _ ≤ _ := h8
  -- together
  have hδ : |θb - -θa| ≤ 0.8 * (φa + φb) := by
    have := zeta_sub_lip mb ma
    rwa [za, zb, hL] at this
  have hs4 : 0 ≤ s * (1 - s) ∧ s * (1 - s) ≤ 1 / 4 := ⟨mul_nonneg s0 (by linarith), by nlinarith [sq_nonneg (s - 1 / 2)]⟩
  have t1 : |s * (1 - s) * ce * (θb - -θa)| ≤ 1 / 4 * (1.22 * (φa + φb) ^ 2) * (0.8 * (φa + φb)) := by
    rw [abs_mul, abs_mul, abs_of_nonneg hs4.1]
    exact mul_le_mul (mul_le_mul hs4.2 hceb (abs_nonneg _) (by norm_num)) hδ (abs_nonneg _) (by positivity)
  have t2 : |4 * (s * (1 - s)) * N| ≤ 1 * (0.27 / 8 * (φa + φb) ^ 3) := by
    rw [abs_mul, abs_of_nonneg (by linarith [hs4.1])]
    exact mul_le_mul (by linarith [hs4.2]) hNb (abs_nonneg _) (by norm_num)
  rw [Quad.parab, ← hN] at hq
  have e : -θa + (s + s * (1 - s) * ce) * (θb - -θa) - θ
      = -(θ - (-θa + s * (θb - -θa) - 4 * (s * (1 - s)) * N)) + s * (1 - s) * ce * (θb - -θa) + 4 * (s * (1 - s)) * N := by ring
  rw [e]
  refine (abs_add_le _ _).trans ?_
  have := abs_add_le (-(θ - (-θa + s * (θb - -θa) - 4 * (s * (1 - s)) * N))) (s * (1 - s) * ce * (θb - -θa))
  rw [abs_neg] at this
  have h3 : 0 ≤ (φa + φb) ^ 3 := by positivity
  have e3 : 1 / 4 * (1.22 * (φa + φb) ^ 2) * (0.8 * (φa + φb)) = 0.244 * (φa + φb) ^ 3 := by ring
  rw [e3] at t1
  linarith

/-- **C104 (uniform weights)**: equal steps between the tie points, as in the simple interpolator and without the expansion coefficient,
are wrong by a second-order term: the point half way between two tie points with zenith angles between 45 and 70 degrees is in the
direction of the mean of their angles from the nadir, which exceeds the angle of the point seen half way in scan angle by at least 0.05
times the square of the scan angle between the two.  (`C104_half`: the weight of the code is exact there.) -/
theorem C104_uniform (R : ℝ) (e f : ℝ × ℝ × ℝ) {a b φa φb θa θb θ ζ : ℝ} (a0 : 45 ≤ a) (ha : a ≤ 70) (b0 : 45 ≤ b) (hb : b ≤ 70)
    (sa : Seen Rk Hk φa θa (rad a)) (sb : Seen Rk Hk φb θb (rad b)) (sp : Seen Rk Hk ((φa + φb) / 2) θ ζ) :
    (∃ ρ, 0 < ρ ∧ chordPoint (scanPoint R e f θa) (scanPoint R e f θb) (1 / 2) = scale ρ (scanPoint R e f ((θa + θb) / 2))) ∧
      θ + 0.05 * (φb - φa) ^ 2 ≤ (θa + θb) / 2 := by
  have hpi := pi_gt_three
  have ha' : |a| ≤ 70 := by rw [abs_of_nonneg (by linarith)]; linarith
  have hb' : |b| ≤ 70 := by rw [abs_of_nonneg (by linarith)]; linarith
  obtain ⟨pa, ta, ma⟩ := seen_phi ha' sa
  obtain ⟨pb, tb, mb⟩ := seen_phi hb' sb
  have za : zetaR φa - φa = θa := by rw [pa, ta, zeta_phi (rad_70 ha')]
  have zb : zetaR φb - φb = θb := by rw [pb, tb, zeta_phi (rad_70 hb')]
  have hmt := mTop_lt
  constructor
  · refine ⟨cos ((θb - θa) / 2), ?_, ?_⟩
    · have h1 := zeta_sub_lip mb ma
      rw [za, zb] at h1
      have h2 := abs_le.1 ma
      have h3 := abs_le.1 mb
      have h4 : |φb - φa| ≤ 2.1 := abs_le.2 ⟨by linarith, by linarith⟩
      have h5 := abs_le.1 h1
      apply cos_pos_of_mem_Ioo
      constructor <;> linarith
    · have c1 : cos θa + cos θb = 2 * cos ((θb - θa) / 2) * cos ((θa + θb) / 2) := by
        rw [add_comm, cos_add_cos, show (θb + θa) / 2 = (θa + θb) / 2 by ring]; ring
      have c2 : sin θa + sin θb = 2 * cos ((θb - θa) / 2) * sin ((θa + θb) / 2) := by
        have q1 := sin_add ((θa + θb) / 2) ((θb - θa) / 2)
        have q2 := sin_sub ((θa + θb) / 2) ((θb - θa) / 2)
        rw [show (θa + θb) / 2 + (θb - θa) / 2 = θb by ring] at q1
        rw [show (θa + θb) / 2 - (θb - θa) / 2 = θa by ring] at q2
        linarith
      simp only [chordPoint, scale, scanPoint]
      refine Prod.ext ?_ (Prod.ext ?_ ?_) <;> simp only
      · linear_combination R / 2 * (e.1 * c1 + f.1 * c2)
      · linear_combination R / 2 * (e.2.1 * c1 + f.2.1 * c2)
      · linear_combination R / 2 * (e.2.2 * c1 + f.2.2 * c2)
  · obtain ⟨p, hp, h⟩ := theta_second ma mb
    rw [za, zb, ← (seen_iff sp).2] at h
    have hz : π / 4 ≤ zetaR p := by
      have mono : ∀ {x}, |x| ≤ mTop → x ≤ p → zetaR x ≤ zetaR p := by
        intro x hx hxp
        unfold zetaR
        apply monotone_arcsin
        have hm := abs_le.1 (uIcc_mTop ma mb hp)
        have hm' := abs_le.1 hx
        have := sin_le_sin_of_le_of_le_pi_div_two (by linarith) (by linarith) hxp
        exact mul_le_mul_of_nonneg_left this (inv_nonneg.2 kap_pos.le)
      have r45 : ∀ {x : ℝ}, 45 ≤ x → π / 4 ≤ rad x := by
        intro x hx
        unfold rad
        have := mul_le_mul_of_nonneg_right hx (show 0 ≤ π / 180 by positivity)
        linarith
      rw [Set.mem_uIcc] at hp
      rcases hp with hp' | hp'
      · have := mono ma hp'.1
        rw [pa, zeta_phi (rad_70 ha')] at this
        linarith [r45 a0]
      · have := mono mb hp'.1
        rw [pb, zeta_phi (rad_70 hb')] at this
        linarith [r45 b0]
    have h2 := zeta2_large (uIcc_mTop ma mb hp) hz
    have := mul_le_mul_of_nonneg_right h2 (sq_nonneg (φb - φa))
    linarith

/-- zenith angles 0.1 and 0.2 degrees to the two sides of the nadir -/
example : ∃ θ ζ ce, Seen Rk Hk (-phiR (rad 0.1) + 1 / 4 * (phiR (rad 0.2) - -phiR (rad 0.1))) θ ζ ∧
    (expansionAlignment 1 (val 0.1 : FP ℝ) (val 0.2)).1 = val ce ∧
    |-(rad 0.1 - phiR (rad 0.1)) + (1 / 4 + 1 / 4 * (1 - 1 / 4) * ce) * ((rad 0.2 - phiR (rad 0.2)) - -(rad 0.1 - phiR (rad 0.1))) - θ|
      ≤ 1.2 * (phiR (rad 0.1) + phiR (rad 0.2)) ^ 3 := by
  have ha : |(0.1 : ℝ)| ≤ 70 := by norm_num [abs_le]
  have hb : |(0.2 : ℝ)| ≤ 70 := by norm_num [abs_le]
  obtain ⟨θ, ζ, sp⟩ := seen_between (φa := -phiR (rad 0.1)) (by rw [abs_neg]; exact phi_mTop ha) (phi_mTop hb) (s := 1 / 4)
    (by norm_num) (by norm_num)
  have sa := seen_zenith (a := -0.1) (by rwa [abs_neg])
  have hneg : ∀ x, phiR (-x) = -phiR x := fun x => by unfold phiR; rw [sin_neg, mul_neg, arcsin_neg]
  rw [show rad (-0.1) = -rad 0.1 by unfold rad; ring, hneg, show -rad 0.1 - -phiR (rad 0.1) = -(rad 0.1 - phiR (rad 0.1)) by ring] at sa
  obtain ⟨ce, h1, h2⟩ := C104_nadir 1 (by norm_num) (by norm_num) (by norm_num) (by norm_num) (by norm_num) (by norm_num) sa (seen_zenith hb)
    (by norm_num) (by norm_num) sp
  exact ⟨θ, ζ, ce, sp, h1, h2⟩

example : ∃ θ ζ, Seen Rk Hk ((phiR (rad 60) + phiR (rad 61)) / 2) θ ζ ∧
    θ + 0.05 * (phiR (rad 61) - phiR (rad 60)) ^ 2 ≤ ((rad 60 - phiR (rad 60)) + (rad 61 - phiR (rad 61))) / 2 := by
  have ha : |(60 : ℝ)| ≤ 70 := by norm_num [abs_le]
  have hb : |(61 : ℝ)| ≤ 70 := by norm_num [abs_le]
  obtain ⟨θ, ζ, sp⟩ := seen_between (phi_mTop ha) (phi_mTop hb) (s := 1 / 2) (by norm_num) (by norm_num)
  rw [show phiR (rad 60) + 1 / 2 * (phiR (rad 61) - phiR (rad 60)) = (phiR (rad 60) + phiR (rad 61)) / 2 by ring] at sp
  exact ⟨θ, ζ, sp, (C104_uniform 1 (1, 0, 0) (0, 1, 0) (by norm_num) (by norm_num) (by norm_num) (by norm_num) (seen_zenith ha)
    (seen_zenith hb) sp).2⟩

/-! ### whole runs -/

/-- **C104 (pixels)**: every conversion, every pixel between the two tie columns of its cell.  The part of its scan weight that is due
to the expansion (the weight without the alignment term) places it, to third order, where it is seen. -/
theorem C104_pixels (c : Conv) (w : Nat) {r k : Nat} (hr : r < c.scanRows * c.factor) (hk : k < c.outCols)
    (satz : Nat → Nat → ℝ) (i0 : Nat) {a b : ℝ} (ea : a = satz (i0 + cellRow (c.cfg w) r) (cellCol (c.cfg w) k))
    (eb : b = satz (i0 + cellRow (c.cfg w) r) (cellCol (c.cfg w) k + 1)) (ha : |a| ≤ 70) (hb : |b| ≤ 70) (h0 : ¬ (a = 0 ∧ b = 0)) :
    ∃ T S σ ca, trackScan (c.cfg w) (fun i j => (val (satz i j) : FP ℝ)) i0 r k = (val T, val S) ∧
      rowPos c w r = val ((cellRow (c.cfg w) r : ℝ) + T) ∧ colPos c w k = val ((cellCol (c.cfg w) k : ℝ) + σ) ∧
      (expansionAlignment (c.cfg w).perKm (val a : FP ℝ) (val b)).2 = val ca ∧
      ∀ φa φb θa θb θ ζ, 0 ≤ σ → σ ≤ 1 → Seen Rk Hk φa θa (rad a) → Seen Rk Hk φb θb (rad b) →
        Seen Rk Hk (φa + σ * (φb - φa)) θ ζ →
        |θa + (S - T * (1 - T) * ca) * (θb - θa) - θ| ≤ 18 * |σ * (σ - 1 / 2) * (σ - 1)| * |φb - φa| ^ 3 := by
  obtain ⟨T, σ, -, -, y1, x1, -, -, key⟩ := weights_val c w hr hk i0
  have hper : (c.cfg w).perKm ≤ 5 := by cases c <;> simp [Conv.cfg]
  obtain ⟨ce, e1, -⟩ := C98_expansion _ hper ha hb h0
  obtain ⟨ca, f1, -⟩ := C98_alignment _ hper ha hb h0
  refine ⟨T, _, σ, ca, key _ ce ca ?_, y1, x1, f1, fun φa φb θa θb θ ζ s0 s1 sa sb sp => ?_⟩
  · rw [← ea, ← eb, ← e1, ← f1]
  · obtain ⟨ce', g1, g2⟩ := C104_coefficient _ hper ha hb h0 sa sb s0 s1 sp
    obtain rfl : ce = ce' := by rw [e1, FP.val.injEq] at g1; exact g1
    rwa [show σ + σ * (1 - σ) * ce + T * (1 - T) * ca - T * (1 - T) * ca = σ + σ * (1 - σ) * ce by ring]

/-- 1 km data at 500 m, the pixel half way between two columns, between two rows -/
example : ∃ T S ca θ ζ, trackScan (Conv.km1to500.cfg 1354) (fun _ j => (val (45 + 0.1 * (j : ℝ)) : FP ℝ)) 0 3 1 = (val T, val S) ∧
    (expansionAlignment 1 (val 45 : FP ℝ) (val 45.1)).2 = val ca ∧ Seen Rk Hk (phiR (rad 45) + 1 / 2 * (phiR (rad 45.1) - phiR (rad 45))) θ ζ ∧
    (rad 45 - phiR (rad 45)) + (S - T * (1 - T) * ca) * ((rad 45.1 - phiR (rad 45.1)) - (rad 45 - phiR (rad 45))) = θ := by
  have ha : |(45 : ℝ)| ≤ 70 := by norm_num [abs_le]
  have hb : |(45.1 : ℝ)| ≤ 70 := by norm_num [abs_le]
  obtain ⟨θ, ζ, sp⟩ := seen_between (phi_mTop ha) (phi_mTop hb) (s := 1 / 2) (by norm_num) (by norm_num)
  obtain ⟨T, S, σ, ca, h1, -, h3, h4, h5⟩ := C104_pixels .km1to500 1354 (r := 3) (k := 1) (by decide) (by decide)
    (fun _ j => 45 + 0.1 * (j : ℝ)) 0 (a := 45) (b := 45.1) (by norm_num [cellCol, Conv.cfg]) (by norm_num [cellCol, Conv.cfg])
    ha hb (by norm_num)
  rw [C31_cols_1km_partial .km1to500 (Or.inl rfl) 1354 1 (by decide), FP.val.injEq] at h3
  obtain rfl : σ = 1 / 2 := by norm_num [cellCol, Conv.cfg, Conv.factor] at h3; linarith
  have h6 := h5 _ _ _ _ θ ζ (by norm_num) (by norm_num) (seen_zenith ha) (seen_zenith hb) sp
  refine ⟨T, S, ca, θ, ζ, h1, h4, sp, ?_⟩
  rw [show |(1 / 2 : ℝ) * (1 / 2 - 1 / 2) * (1 / 2 - 1)| = 0 by norm_num, mul_zero, zero_mul] at h6
  exact sub_eq_zero.1 (abs_eq_zero.1 (le_antisymm h6 (abs_nonneg _)))

/-- **C104 (5 km data at 1 km)**: `modis_5km_to_1km` for whole scans with 270 or 271 columns.  On the rows of the tie points (2, 7, 12,
...) and between the first and the last column of tie points, a pixel is reported in the direction of a point of the scan whose
angle from the nadir (at the centre of the Earth) differs from that of the point seen by the instrument by at most the cube of the scan
angle between the two tie points, if these lie on the circle of a scan in agreement with the zenith angles that the code uses for
them (those of the first row of the scan), of at most 70 degrees, not both zero and at most 5 degrees apart. -/
theorem C104_run (n w : Nat) (hw : w = 270 ∨ w = 271) (lon lat satz : Nat → Nat → ℝ) (junk : Nat → Nat → Nat → Nat → FP ℝ) :
    ∃ out, modis5kmTo1km ⟨n * 2, w, fun i j => val (lon i j)⟩ ⟨n * 2, w, fun i j => val (lat i j)⟩
        ⟨n * 2, w, fun i j => val (satz i j)⟩ junk = .ok out ∧
      ∀ i j m : Nat, i < n * 2 → j + 1 < w → m < 5 → ∀ (e f : ℝ × ℝ × ℝ) (φa φb θa θb θ ζ : ℝ), Orthonormal e f →
        |satz (i / 2 * 2) j| ≤ 70 → |satz (i / 2 * 2) (j + 1)| ≤ 70 → ¬ (satz (i / 2 * 2) j = 0 ∧ satz (i / 2 * 2) (j + 1) = 0) →
        |satz (i / 2 * 2) j - satz (i / 2 * 2) (j + 1)| ≤ 5 →
        Seen Rk Hk φa θa (rad (satz (i / 2 * 2) j)) → Seen Rk Hk φb θb (rad (satz (i / 2 * 2) (j + 1))) →
        spherePoint 6370997 (lon i j) (lat i j) = scanPoint 6370997 e f θa →
        spherePoint 6370997 (lon i (j + 1)) (lat i (j + 1)) = scanPoint 6370997 e f θb →
        Seen Rk Hk (φa + m / 5 * (φb - φa)) θ ζ →
        ∃ β, |β - θ| ≤ |φb - φa| ^ 3 ∧ (axisDistSq (scanPoint 6370997 e f β) ≠ 0 →
          (∃ B, |B - geocentricLat (scanPoint 6370997 e f β)| ≤ 20 * (θb - θa) ^ 2 ∧ out.2.cell (5 * i + 2) (5 * j + 2 + m) = val B) ∧
          (¬ onAntimeridian (scanPoint 6370997 e f β) →
            ∃ A, HasLon A (scanPoint 6370997 e f β) ∧ out.1.cell (5 * i + 2) (5 * j + 2 + m) = val A)) := by
  obtain ⟨out, eo, p1, p2⟩ := run_pixel .km5to1 (n := n) (lon := ⟨n * 2, w, fun i j => (val (lon i j) : FP ℝ)⟩)
    (lat := ⟨n * 2, w, fun i j => val (lat i j)⟩) (satz := ⟨n * 2, w, fun i j => val (satz i j)⟩) ⟨hw, rfl, rfl, rfl, rfl, rfl⟩ junk
  refine ⟨out, eo, fun i j m hi hj hm e f φa φb θa θb θ ζ hon ha hb h0 hg sa sb ta tb sp => ?_⟩
  have s0 : (0 : ℝ) ≤ m / 5 := by positivity
  have s1 : (m : ℝ) / 5 ≤ 1 := by
    rw [div_le_one (by norm_num)]
    exact_mod_cast hm.le
  obtain ⟨ce, β, ρ, e1, w0, w1, hρ, hδ, hch, hβ⟩ := C104_cell 5 le_rfl 6370997 e f ha hb h0 hg sa sb s0 s1 sp
  refine ⟨β, hβ, fun hax => ?_⟩
  simp only [Conv.scanRows, Conv.factor, Conv.outCols] at p1 p2
  have hr : 5 * i + 2 < n * 2 * 5 := by omega
  have hc : 5 * j + 2 + m < 1354 := by omega
  rw [p1.cell _ _ hr hc trivial, p2.cell _ _ hr hc trivial]
  -- the weights
  have hcc : cellCol (Conv.km5to1.cfg w) (5 * j + 2 + m) = j := by
    simp only [cellCol, Conv.cfg, show ¬ ((2:Nat) = 10) by omega, if_false]
    rw [show (5 * j + 2 + m - 2) / 5 = j by omega]
    omega
  have hcr : cellRow (Conv.km5to1.cfg w) (5 * (i % 2) + 2) = 0 := rfl
  obtain ⟨T, σ, -, -, y1, x1, -, -, key⟩ := weights_val .km5to1 w (r := 5 * (i % 2) + 2) (k := 5 * j + 2 + m)
    (by simp only [Conv.scanRows, Conv.factor]; omega) hc (i / 2 * 2)
  rw [(C31_5km_to_1km_partial w hw).2 _ hc, hcc, FP.val.injEq] at x1
  rw [(C31_5km_to_1km_partial w hw).1 _ (by omega), hcr, FP.val.injEq] at y1
  obtain rfl : σ = m / 5 := by push_cast at x1; linarith
  have hT : T = ((i % 2 : ℕ) : ℝ) := by push_cast at y1 ⊢; linarith
  obtain ⟨ca, f1, -⟩ := C98_alignment 5 le_rfl ha hb h0
  have hts := key (fun i j => val (satz i j)) ce ca (by rw [hcr, hcc, ← e1, ← f1]; rfl)
  have hT0 : T * (1 - T) = 0 := by
    rw [hT]; rcases Nat.mod_two_eq_zero_or_one i with h | h <;> rw [h] <;> norm_num
  rw [hT0, zero_mul, add_zero] at hts
  obtain ⟨S, hS⟩ : ∃ S, S = (m : ℝ) / 5 + m / 5 * (1 - m / 5) * ce := ⟨_, rfl⟩
  rw [← hS] at hts w0 w1 hch
  -- the pixel
  have hpx : pixel (Conv.km5to1.cfg w) (fun i j => (val (lon i j) : FP ℝ)) (fun i j => val (lat i j)) (fun i j => val (satz i j))
      (5 * i + 2) (5 * j + 2 + m) = cyXyz2lonlat (val 6370997) (val (8 / 10)) true
        (pt (chordPoint (spherePoint 6370997 (lon i j) (lat i j)) (spherePoint 6370997 (lon i (j + 1)) (lat i (j + 1))) S)) := by
    unfold pixel scanPixel
    rw [Verif.Modis.earthRadius_val, cyThr_eq, Verif.Modis.defaultThr_val, show ((4 : ℝ) / 5) = 8 / 10 by norm_num]
    simp only [Conv.cfg]
    rw [show (5 * i + 2) / (2 * 5) * 2 = i / 2 * 2 by omega, show (5 * i + 2) % (2 * 5) = 5 * (i % 2) + 2 by omega]
    have hx : ∀ l, fineXyz (Conv.km5to1.cfg w) (ties (fun i j => (val (lon i j) : FP ℝ)) (fun i j => val (lat i j)))
        (fun i j => val (satz i j)) (i / 2 * 2) (5 * (i % 2) + 2) (5 * j + 2 + m) l
          = val ((1 - S) * tieR lon lat l i j + S * tieR lon lat l i (j + 1)) := by
      intro l
      unfold fineXyz
      simp only [hts, hcr, hcc, Nat.add_zero, ties_val]
      unfold fineComponent
      simp only [FP.one_eq, FP.val_sub, FP.val_mul, FP.val_add]
      congr 1
      rw [hT]
      rcases Nat.mod_two_eq_zero_or_one i with h | h
      · rw [h, show i / 2 * 2 = i by omega]; push_cast; ring
      · rw [h, show i / 2 * 2 + 1 = i by omega]; push_cast; ring
    show cyXyz2lonlat _ _ true (fineXyz (Conv.km5to1.cfg w) _ _ _ _ _ 0, fineXyz (Conv.km5to1.cfg w) _ _ _ _ _ 1,
      fineXyz (Conv.km5to1.cfg w) _ _ _ _ _ 2) = _
    rw [hx, hx, hx]
    congr 1
  obtain ⟨P, hP⟩ : ∃ P, P = chordPoint (spherePoint 6370997 (lon i j) (lat i j)) (spherePoint 6370997 (lon i (j + 1)) (lat i (j + 1))) S :=
    ⟨_, rfl⟩
  have eP : P = scale ρ (scanPoint 6370997 e f β) := by rw [hP, ta, tb, hch]
  have hax' : axisDistSq P ≠ 0 := by
    rw [eP, axisDistSq_scale]
    exact mul_ne_zero (pow_ne_zero 2 hρ.ne') hax
  rw [hpx, ← hP]
  constructor
  · have near : distSq (spherePoint 6370997 (lon i j) (lat i j)) (spherePoint 6370997 (lon i (j + 1)) (lat i (j + 1)))
        ≤ (θb - θa) ^ 2 * 6370997 ^ 2 := by
      rw [ta, tb]
      have d1 := dot_scanPoint (R := 6370997) hon θa θa
      have d2 := dot_scanPoint (R := 6370997) hon θb θb
      have d3 := dot_scanPoint (R := 6370997) hon θb θa
      rw [sub_self, cos_zero] at d1 d2
      have := one_sub_sq_div_two_le_cos (x := θb - θa)
      simp only [dot, distSq] at *
      nlinarith
    have sym : distSq (spherePoint 6370997 (lon i (j + 1)) (lat i (j + 1))) (spherePoint 6370997 (lon i j) (lat i j))
        ≤ (θb - θa) ^ 2 * 6370997 ^ 2 := by
      simp only [distSq] at near ⊢; linarith
    have same : ∀ u : ℝ × ℝ × ℝ, distSq u u ≤ (θb - θa) ^ 2 * 6370997 ^ 2 := by
      intro u
      have : 0 ≤ (θb - θa) ^ 2 * 6370997 ^ 2 := by positivity
      simpa [distSq] using this
    have hd : (θb - θa) ^ 2 ≤ 1 / 100 := by
      rw [← sq_abs]
      calc _ ≤ (0.1 : ℝ) ^ 2 := pow_le_pow_left₀ (abs_nonneg _) hδ 2
        _ = _ := by norm_num
    obtain ⟨B, hB, -, eB⟩ := C91_lat 6370997 ((θb - θa) ^ 2) (by norm_num) (sq_nonneg _) hd ![1 - S, S] ![lon i j, lon i (j + 1)]
      ![lat i j, lat i (j + 1)] (by intro l; fin_cases l <;> simp <;> linarith) (by simp [Fin.sum_univ_two])
      (by intro l l'; fin_cases l <;> fin_cases l' <;> simp [same, near, sym]) P
      (by
        rw [hP]
        simp [wsum, Fin.sum_univ_two, chordPoint]) hax'
    rw [eP, geocentricLat_scale hρ] at hB
    exact ⟨B, hB, eB⟩
  · intro han
    obtain ⟨A, hA, -, eA⟩ := C91_lon 6370997 (8 / 10) true P (by norm_num) hax' (by rw [eP, onAntimeridian_scale hρ]; exact han)
    refine ⟨A, ?_, eA⟩
    rw [eP] at hA
    exact hasLon_scale hρ hA

/-- a scan along the equator with zenith angles from 40 degrees on: the pixel in row 2, a fifth of the way from tie column 100 to 101 -/
example (junk : Nat → Nat → Nat → Nat → FP ℝ) : ∃ out θ ζ β,
    modis5kmTo1km ⟨2, 270, fun _ j => val (deg (rad (40 + 0.1 * j) - phiR (rad (40 + 0.1 * j))))⟩ ⟨2, 270, fun _ _ => val 0⟩
      ⟨2, 270, fun _ j => val (40 + 0.1 * j)⟩ junk = .ok out ∧
    Seen Rk Hk (phiR (rad 50) + ((1 : ℕ) : ℝ) / 5 * (phiR (rad 50.1) - phiR (rad 50))) θ ζ ∧
    |β - θ| ≤ |phiR (rad 50.1) - phiR (rad 50)| ^ 3 ∧
    ∃ A, HasLon A (scanPoint 6370997 (1, 0, 0) (0, 1, 0) β) ∧ out.1.cell 2 503 = val A := by
  have ha : |(50 : ℝ)| ≤ 70 := by norm_num [abs_le]
  have hb : |(50.1 : ℝ)| ≤ 70 := by norm_num [abs_le]
  obtain ⟨θ, ζ, sp⟩ := seen_between (phi_mTop ha) (phi_mTop hb) (s := ((1 : ℕ) : ℝ) / 5) (by norm_num) (by norm_num)
  obtain ⟨out, e1, e2⟩ := C104_run 1 270 (Or.inl rfl) (fun _ j => deg (rad (40 + 0.1 * j) - phiR (rad (40 + 0.1 * j)))) (fun _ _ => 0)
    (fun _ j => 40 + 0.1 * j) junk
  have hsp : ∀ x : ℝ, spherePoint 6370997 (deg x) 0 = scanPoint 6370997 (1, 0, 0) (0, 1, 0) x := by
    intro x
    have hd : rad (deg x) = x := by
      have := pi_ne_zero
      unfold rad deg
      field_simp
    have h0 : rad 0 = 0 := by unfold rad; ring
    simp [spherePoint, scanPoint, hd, h0]
  have c1 : (40 + 0.1 * ((100 : ℕ) : ℝ)) = 50 := by norm_num
  have c2 : (40 + 0.1 * ((100 + 1 : ℕ) : ℝ)) = 50.1 := by norm_num
  obtain ⟨β, h1, h2⟩ := e2 0 100 1 (by norm_num) (by norm_num) (by norm_num) (1, 0, 0) (0, 1, 0) (phiR (rad 50)) (phiR (rad 50.1))
    (rad 50 - phiR (rad 50)) (rad 50.1 - phiR (rad 50.1)) θ ζ (by norm_num [Orthonormal, dot]) (by rw [c1]; exact ha) (by rw [c2]; exact hb)
    (by rw [c1, c2]; norm_num) (by rw [c1, c2]; norm_num [abs_le]) (by rw [c1]; exact seen_zenith ha) (by rw [c2]; exact seen_zenith hb)
    (by simp only [c1]; exact hsp _) (by simp only [c2]; exact hsp _) sp
  refine ⟨out, θ, ζ, β, e1, sp, h1, ?_⟩
  -- the point is in front of the Earth
  have hpi := pi_gt_three
  have hsmall : |β| < 1.5 := by
    have hφ : |phiR (rad 50.1) - phiR (rad 50)| ≤ 0.01 := by
      have := phiR_lip (rad 50.1) (rad 50)
      have e : |rad 50.1 - rad 50| = 0.1 * (π / 180) := by
        unfold rad
        rw [show (50.1 : ℝ) * (π / 180) - 50 * (π / 180) = 0.1 * (π / 180) by ring, abs_of_pos (by positivity)]
      rw [e] at this
      have hk := kap_bounds.2
      have := pi_lt_d2
      have h3 : kap * (0.1 * (π / 180)) ≤ 1 * (0.1 * (π / 180)) := by gcongr; linarith
      linarith
    have h3 : |phiR (rad 50.1) - phiR (rad 50)| ^ 3 ≤ 0.01 ^ 3 := by gcongr
    have hz : ∃ p, |p| ≤ mTop ∧ θ = zetaR p - p := by
      refine ⟨phiR (rad 50) + ((1 : ℕ) : ℝ) / 5 * (phiR (rad 50.1) - phiR (rad 50)), ?_, (seen_iff sp).2⟩
      have m1 := abs_le.1 (phi_mTop ha)
      have m2 := abs_le.1 (phi_mTop hb)
      rw [abs_le]
      push_cast
      constructor <;> linarith [m1.1, m1.2, m2.1, m2.2]
    obtain ⟨p, hp, eθ⟩ := hz
    have h0 := zeta_sub_lip hp (y := 0) (by rw [abs_zero]; exact mTop_nonneg)
    have z0 : zetaR 0 = 0 := by simp [zetaR]
    rw [z0, sub_zero, sub_zero, sub_zero, ← eθ] at h0
    have hm := mTop_lt
    have := abs_add_le (β - θ) θ
    rw [sub_add_cancel] at this
    norm_num at h3
    linarith
  have hcos : 0 < cos β := cos_pos_of_mem_Ioo ⟨by linarith [(abs_lt.1 hsmall).1], by linarith [(abs_lt.1 hsmall).2]⟩
  refine (h2 ?_).2 ?_
  · simp only [axisDistSq, scanPoint, mul_one, mul_zero, add_zero, zero_add]
    positivity
  · simp only [onAntimeridian, scanPoint, mul_one, mul_zero, add_zero, zero_add]
    intro h
    nlinarith [h.2]

end Verif.Props
