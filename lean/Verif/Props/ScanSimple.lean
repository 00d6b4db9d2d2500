import Verif.Props.ScanGeom
import Verif.Props.LonOrder

/-!
# C108: the simple interpolator in the viewing geometry

The simple MODIS interpolator (_simple_modis_interpolator.pyx:13-277) takes equal steps
between the tie points.  The instrument takes equal steps of the scan angle.
-/

namespace Verif.Props
open Verif Verif.Modis Verif.Spec.Modis Verif.Geo Verif.Spec FP Real

/-- error of the straight line through the two ends -/
private theorem line_err {F F1 F2 : ℝ → ℝ} {M : ℝ} (h1 : ∀ x ∈ Set.Icc (0 : ℝ) 1, HasDerivAt F (F1 x) x)
    (h2 : ∀ x ∈ Set.Icc (0 : ℝ) 1, HasDerivAt F1 (F2 x) x) (hM : ∀ x ∈ Set.Icc (0 : ℝ) 1, |F2 x| ≤ M) {s : ℝ} (s0 : 0 ≤ s) (s1 : s ≤ 1) :
    |F s - (F 0 + s * (F 1 - F 0))| ≤ M / 2 * (s * (1 - s)) := by
  rcases s0.eq_or_lt with rfl | s0
  · simp
  rcases s1.eq_or_lt with rfl | s1
  · simp
  have hz : s * (1 - s) ≠ 0 := (mul_pos s0 (by linarith)).ne'
  obtain ⟨K, hK⟩ : ∃ K, K * (s * (1 - s)) = F s - (F 0 + s * (F 1 - F 0)) := ⟨_, div_mul_cancel₀ _ hz⟩
  obtain ⟨u, v, eu, ev⟩ : ∃ u v, u = F 0 ∧ v = F 1 := ⟨_, _, rfl, rfl⟩
  rw [← eu, ← ev] at hK ⊢
  have d1 : ∀ x ∈ Set.Icc (0 : ℝ) 1, HasDerivAt (fun t => F t - (u + t * (v - u)) - K * (t * (1 - t))) (F1 x - (v - u) - K * (1 - 2 * x)) x := by
    intro x hx
    have e1 := ((hasDerivAt_id x).mul_const (v - u)).const_add u
    have e2 := ((hasDerivAt_id x).mul ((hasDerivAt_id x).const_sub 1)).const_mul K
    refine (((h1 x hx).sub e1).sub e2).congr_deriv ?_
    simp only [id]
    ring
  have d2 : ∀ x ∈ Set.Icc (0 : ℝ) 1, HasDerivAt (fun x => F1 x - (v - u) - K * (1 - 2 * x)) (F2 x + 2 * K) x := by
    intro x hx
    have e2 := (((hasDerivAt_id x).const_mul 2).const_sub 1).const_mul K
    refine (((h2 x hx).sub_const (v - u)).sub e2).congr_deriv ?_
    ring
  have roll : ∀ {f f' : ℝ → ℝ}, (∀ x ∈ Set.Icc (0 : ℝ) 1, HasDerivAt f (f' x) x) → ∀ {x y : ℝ}, 0 ≤ x → x < y → y ≤ 1 → f x = f y →
      ∃ c, x < c ∧ c < y ∧ f' c = 0 := by
    intro f f' hf x y hx hxy hy e
    obtain ⟨c, hc, hc'⟩ := exists_hasDerivAt_eq_zero hxy
      (fun z hz => (hf z ⟨hx.trans hz.1, hz.2.trans hy⟩).continuousAt.continuousWithinAt) e
      (fun z hz => hf z ⟨hx.trans hz.1.le, hz.2.le.trans hy⟩)
    exact ⟨c, hc.1, hc.2, hc'⟩
  obtain ⟨c1, a1, b1, e1⟩ := roll d1 le_rfl s0 s1.le (by rw [← eu, hK]; ring)
  obtain ⟨c2, a2, b2, e2⟩ := roll d1 s0.le s1 le_rfl (by rw [← ev, hK]; ring)
  obtain ⟨c, a3, b3, e3⟩ := roll d2 a1.le (b1.trans a2) b2.le (by rw [e1, e2])
  have hc := hM c ⟨by linarith, by linarith⟩
  have hk : |K| ≤ M / 2 := by
    rw [show K = -(F2 c) / 2 by linarith, abs_div, abs_neg, abs_of_pos (by norm_num : (0:ℝ) < 2)]
    linarith
  rw [← hK, abs_mul, abs_of_pos (mul_pos s0 (by linarith : 0 < 1 - s))]
  exact mul_le_mul_of_nonneg_right hk (mul_pos s0 (by linarith)).le

/-- the second derivative up to the zenith angles of the statement -/
private theorem zeta2_le {p : ℝ} (h : |p| ≤ mTop) : |zeta2 p| ≤ 6.4 := by
  have hc := cos_zetaR h
  obtain ⟨k1, k2⟩ := inv_kap_bounds
  have hs : |sin (zetaR p)| ≤ 0.945 := by rw [sin_zetaR h]; exact zeta_arg h
  have hk : 0 ≤ kap⁻¹ ^ 2 - 1 := by nlinarith
  have hk' : kap⁻¹ ^ 2 - 1 ≤ 0.2350 := by nlinarith
  unfold zeta2
  have hc3 : (0.327 : ℝ) ^ 3 ≤ cos (zetaR p) ^ 3 := pow_le_pow_left₀ (by norm_num) hc 3
  have hc0 : 0 < cos (zetaR p) ^ 3 := lt_of_lt_of_le (by norm_num) hc3
  rw [abs_div, abs_mul, abs_of_nonneg hk, abs_of_pos hc0, div_le_iff₀ hc0]
  calc _ ≤ 0.2350 * 0.945 := mul_le_mul hk' hs (abs_nonneg _) (by norm_num)
    _ ≤ 6.4 * 0.327 ^ 3 := by norm_num
    _ ≤ _ := by linarith

private theorem seg_mTop {x y t : ℝ} (hx : |x| ≤ mTop) (hy : |y| ≤ mTop) (ht : t ∈ Set.Icc (0 : ℝ) 1) : |x + t * (y - x)| ≤ mTop := by
  rw [abs_le] at *
  obtain ⟨t0, t1⟩ := ht
  constructor <;> nlinarith

/-- **C108 (equal steps)**: two tie points seen under the scan angles `φa` and `φb` with zenith angles of at most 70 degrees, on the same side
of the nadir or on different ones.  Equal steps between their angles at the centre of the Earth place the point seen at the scan angle the
fraction `s` of the way between them with an error of at most `3.2 s (1 - s)` times the square of the difference of the scan angles. -/
theorem C108_steps {a b φa φb θa θb s θ ζ : ℝ} (ha : |a| ≤ 70) (hb : |b| ≤ 70) (sa : Seen Rk Hk φa θa (rad a)) (sb : Seen Rk Hk φb θb (rad b))
    (s0 : 0 ≤ s) (s1 : s ≤ 1) (sp : Seen Rk Hk (φa + s * (φb - φa)) θ ζ) :
    |θa + s * (θb - θa) - θ| ≤ 3.2 * (s * (1 - s)) * (φb - φa) ^ 2 := by
  have ma := (seen_phi ha sa).2.2
  have mb := (seen_phi hb sb).2.2
  have h := line_err (F := fun t => zetaR (φa + t * (φb - φa)) - (φa + t * (φb - φa)))
    (F1 := fun t => (zeta1 (φa + t * (φb - φa)) - 1) * (φb - φa)) (F2 := fun t => zeta2 (φa + t * (φb - φa)) * (φb - φa) ^ 2)
    (M := 6.4 * (φb - φa) ^ 2) ?_ ?_ ?_ s0 s1
  · simp only [zero_mul, add_zero, one_mul, add_sub_cancel] at h
    rw [← (seen_iff sa).2, ← (seen_iff sb).2, ← (seen_iff sp).2, abs_sub_comm] at h
    linarith
  · intro t ht
    have e := ((hasDerivAt_id t).mul_const (φb - φa)).const_add φa
    refine (((d_zeta1 (seg_mTop ma mb ht)).comp t e).sub e).congr_deriv ?_
    ring
  · intro t ht
    have e := ((hasDerivAt_id t).mul_const (φb - φa)).const_add φa
    refine ((((d_zeta2 (seg_mTop ma mb ht)).comp t e).sub_const 1).mul_const (φb - φa)).congr_deriv ?_
    ring
  · intro t ht
    rw [abs_mul, abs_of_nonneg (sq_nonneg (φb - φa))]
    exact mul_le_mul_of_nonneg_right (zeta2_le (seg_mTop ma mb ht)) (sq_nonneg _)

private theorem seen_between {φa φb s : ℝ} (ha : |φa| ≤ mTop) (hb : |φb| ≤ mTop) (s0 : 0 ≤ s) (s1 : s ≤ 1) :
    ∃ θ ζ, Seen Rk Hk (φa + s * (φb - φa)) θ ζ := ⟨_, _, seen_of (seg_mTop ha hb ⟨s0, s1⟩)⟩

private theorem phi_mTop {a : ℝ} (ha : |a| ≤ 70) : |phiR (rad a)| ≤ mTop := by
  have := phiR_70 ((abs_sin_70 ha).trans (by norm_num)); linarith

/-- tie points at zenith angles of 60 and 61 degrees, a quarter of the way -/
example : ∃ θ ζ, Seen Rk Hk (phiR (rad 60) + 1 / 4 * (phiR (rad 61) - phiR (rad 60))) θ ζ ∧
    |rad 60 - phiR (rad 60) + 1 / 4 * ((rad 61 - phiR (rad 61)) - (rad 60 - phiR (rad 60))) - θ|
      ≤ 3.2 * (1 / 4 * (1 - 1 / 4)) * (phiR (rad 61) - phiR (rad 60)) ^ 2 := by
  have ha : |(60 : ℝ)| ≤ 70 := by norm_num [abs_le]
  have hb : |(61 : ℝ)| ≤ 70 := by norm_num [abs_le]
  obtain ⟨θ, ζ, sp⟩ := seen_between (phi_mTop ha) (phi_mTop hb) (s := 1 / 4) (by norm_num) (by norm_num)
  exact ⟨θ, ζ, sp, C108_steps ha hb (seen_zenith ha) (seen_zenith hb) (by norm_num) (by norm_num) sp⟩

/-- **C108 (cell)**: the tie points of two rows, each on the circle of a scan of its own, seen under the same two scan angles, with zenith
angles of at most 70 degrees that differ by at most 5 degrees.  The bilinear combination of the four is in the direction of the point between
the two circles, at an angle from the nadir that differs from that of the points seen by at most the square of the difference of the scan
angles. -/
theorem C108_cell (R : ℝ) (lon lat : Nat → Nat → ℝ) (m l : Nat) (e f e' f' : ℝ × ℝ × ℝ) {a b φa φb θa θb s t θ ζ : ℝ} (ha : |a| ≤ 70) (hb : |b| ≤ 70)
    (hg : |a - b| ≤ 5) (sa : Seen Rk Hk φa θa (rad a)) (sb : Seen Rk Hk φb θb (rad b)) (s0 : 0 ≤ s) (s1 : s ≤ 1)
    (sp : Seen Rk Hk (φa + s * (φb - φa)) θ ζ)
    (p00 : spherePoint R (lon m l) (lat m l) = scanPoint R e f θa) (p01 : spherePoint R (lon m (l + 1)) (lat m (l + 1)) = scanPoint R e f θb)
    (p10 : spherePoint R (lon (m + 1) l) (lat (m + 1) l) = scanPoint R e' f' θa)
    (p11 : spherePoint R (lon (m + 1) (l + 1)) (lat (m + 1) (l + 1)) = scanPoint R e' f' θb) :
    ∃ β ρ, 0 < ρ ∧ |β - θ| ≤ (φb - φa) ^ 2 ∧ |θb - θa| ≤ 0.1 ∧
      cellMean R lon lat m l t s = scale ρ (chordPoint (scanPoint R e f β) (scanPoint R e' f' β) t) := by
  have h1 := C108_steps ha hb sa sb s0 s1 sp
  obtain ⟨pa, ta, ma⟩ := seen_phi ha sa
  obtain ⟨pb, tb, mb⟩ := seen_phi hb sb
  have hδ : |θb - θa| ≤ 0.8 * |φb - φa| := by
    have := zeta_sub_lip mb ma
    rwa [← (seen_iff sa).2, ← (seen_iff sb).2] at this
  have hφ : |φb - φa| ≤ 0.09 := by
    have := phiR_lip (rad b) (rad a)
    rw [← pa, ← pb] at this
    have h3 : |rad b - rad a| ≤ 5 * (π / 180) := by
      unfold rad
      rw [← sub_mul, abs_mul, abs_of_pos (show (0 : ℝ) < π / 180 by positivity), abs_sub_comm]
      gcongr
    have hk := kap_bounds.2
    have hk0 := kap_pos
    have hpi := pi_lt_d2
    have h4 : kap * |rad b - rad a| ≤ 1 * (5 * (π / 180)) := mul_le_mul (by linarith) h3 (abs_nonneg _) (by norm_num)
    linarith
  have hδ' : |θb - θa| ≤ 0.1 := by linarith
  -- the same weights along both rows: the same angle and the same distance from the centre
  obtain ⟨β, ρ, hρ, hc, hβ⟩ := scan_chord 1 (1, 0, 0) (0, 1, 0) (x := θa) (y := θb) (hδ'.trans (by norm_num)) s0 s1
  refine ⟨β, ρ, hρ, ?_, hδ', ?_⟩
  · have h3 : |θb - θa| ^ 3 ≤ (0.8 * |φb - φa|) ^ 3 := pow_le_pow_left₀ (abs_nonneg _) hδ 3
    have h4 : |φb - φa| ^ 3 ≤ 0.09 * (φb - φa) ^ 2 := by
      rw [pow_succ, sq_abs, mul_comm]
      exact mul_le_mul_of_nonneg_right hφ (sq_nonneg _)
    have h5 : (0.8 * |φb - φa|) ^ 3 = 0.512 * |φb - φa| ^ 3 := by ring
    have h6 : 3.2 * (s * (1 - s)) * (φb - φa) ^ 2 ≤ 0.8 * (φb - φa) ^ 2 :=
      mul_le_mul_of_nonneg_right (by nlinarith [sq_nonneg (s - 1 / 2)]) (sq_nonneg _)
    have := abs_add_le (β - (θa + s * (θb - θa))) (θa + s * (θb - θa) - θ)
    rw [show β - (θa + s * (θb - θa)) + (θa + s * (θb - θa) - θ) = β - θ by ring] at this
    have := sq_nonneg (φb - φa)
    linarith
  · have c1 : (1 - s) * cos θa + s * cos θb = ρ * cos β := by
      have := congrArg Prod.fst hc
      simpa [chordPoint, scanPoint, scale] using this
    have c2 : (1 - s) * sin θa + s * sin θb = ρ * sin β := by
      have := congrArg (fun p => p.2.1) hc
      simpa [chordPoint, scanPoint, scale] using this
    simp only [cellMean, bilinear, p00, p01, p10, p11, chordPoint, scanPoint, scale]
    refine Prod.ext ?_ (Prod.ext ?_ ?_)
    · linear_combination R * ((1 - t) * e.1 + t * e'.1) * c1 + R * ((1 - t) * f.1 + t * f'.1) * c2
    · linear_combination R * ((1 - t) * e.2.1 + t * e'.2.1) * c1 + R * ((1 - t) * f.2.1 + t * f'.2.1) * c2
    · linear_combination R * ((1 - t) * e.2.2 + t * e'.2.2) * c1 + R * ((1 - t) * f.2.2 + t * f'.2.2) * c2

/-- the angles from the nadir of the tie points of a cell agree with the viewing geometry: the rows `m` and `m + 1` are on the circles of two
scans, seen at the tie columns `l` and `l + 1` under two scan angles, with zenith angles of at most 70 degrees, at most 5 degrees apart -/
structure SeenCell (lon lat : Nat → Nat → ℝ) (m l : Nat) (e f e' f' : ℝ × ℝ × ℝ) (a b φa φb θa θb : ℝ) : Prop where
  zenith : |a| ≤ 70 ∧ |b| ≤ 70 ∧ |a - b| ≤ 5
  left : Seen Rk Hk φa θa (rad a)
  right : Seen Rk Hk φb θb (rad b)
  p00 : spherePoint 6370997 (lon m l) (lat m l) = scanPoint 6370997 e f θa
  p01 : spherePoint 6370997 (lon m (l + 1)) (lat m (l + 1)) = scanPoint 6370997 e f θb
  p10 : spherePoint 6370997 (lon (m + 1) l) (lat (m + 1) l) = scanPoint 6370997 e' f' θa
  p11 : spherePoint 6370997 (lon (m + 1) (l + 1)) (lat (m + 1) (l + 1)) = scanPoint 6370997 e' f' θb

/-- the four tie points of a cell are at most `√d` radii from each other -/
def NearCell (d : ℝ) (lon lat : Nat → Nat → ℝ) (m l : Nat) : Prop :=
  ∀ i ∈ [m, m + 1], ∀ j ∈ [l, l + 1], ∀ i' ∈ [m, m + 1], ∀ j' ∈ [l, l + 1],
    distSq (spherePoint 6370997 (lon i j) (lat i j)) (spherePoint 6370997 (lon i' j') (lat i' j')) ≤ d * 6370997 ^ 2

/-- **C108 (runs)**: the simple MODIS interpolation of 1 km data.  A pixel between two tie rows of a scan and between two tie columns, whose tie
points are as in `SeenCell`: its longitude is that of a point between the two circles, at an angle from the nadir that differs from that of the
points seen by the instrument by at most the square of the scan angle between the tie points; its latitude is that of this point up to 20 degrees
times the square of the size of the cell (in radii). -/
theorem C108_run (c : SConv) (n C : Nat) (hC : 2 ≤ C) (lon lat : Nat → Nat → ℝ) (junk : Nat → Nat → Nat → Nat → FP ℝ) :
    ∃ out, c.run Verif.ModisSimple.mcLinear ⟨n * 10, C, fun i j => val (lon i j)⟩ ⟨n * 10, C, fun i j => val (lat i j)⟩ junk = .ok out ∧
      ∀ s < n, ∀ j < 10 * c.factor, ∀ i < (C - 1) * c.factor, ∀ r : ℕ, r + 1 < 10 → ∀ t : ℝ, ((j : ℝ) + 1 / 2) / c.factor - 1 / 2 = r + t →
        0 ≤ t → t ≤ 1 → ∀ (e f e' f' : ℝ × ℝ × ℝ) (a b φa φb θa θb θ ζ d : ℝ),
        SeenCell lon lat (s * 10 + r) (i / c.factor) e f e' f' a b φa φb θa θb →
        Seen Rk Hk (φa + ((i % c.factor : ℕ) : ℝ) / c.factor * (φb - φa)) θ ζ → 0 ≤ d → d ≤ 1 / 100 → NearCell d lon lat (s * 10 + r) (i / c.factor) →
        ∃ β, |β - θ| ≤ (φb - φa) ^ 2 ∧ ∀ Q, Q = chordPoint (scanPoint 6370997 e f β) (scanPoint 6370997 e' f' β) t → axisDistSq Q ≠ 0 →
          (∃ B, |B - geocentricLat Q| ≤ 20 * d ∧ out.2.cell (s * (10 * c.factor) + j) i = val B) ∧
          (¬ onAntimeridian Q → ∃ A, HasLon A Q ∧ out.1.cell (s * (10 * c.factor) + j) i = val A) := by
  obtain ⟨out, h1, h2⟩ := C36_bilinear c n C hC lon lat junk
  have hF : 1 ≤ c.factor := by cases c <;> decide
  have hF' : (0 : ℝ) < c.factor := by exact_mod_cast (by omega : 0 < c.factor)
  refine ⟨out, h1, fun s hs j hj i hi r hr t ht t0 t1 e f e' f' a b φa φb θa θb θ ζ d hcell sp hd0 hd near => ?_⟩
  have hl : i / c.factor < C - 1 := Nat.div_lt_of_lt_mul (by rw [Nat.mul_comm]; exact hi)
  have hi' : i < C * c.factor := lt_of_lt_of_le hi (Nat.mul_le_mul_right _ (by omega))
  obtain ⟨σ, hσ⟩ : ∃ σ : ℝ, σ = ((i % c.factor : ℕ) : ℝ) / c.factor := ⟨_, rfl⟩
  rw [← hσ] at sp
  have s0 : 0 ≤ σ := by rw [hσ]; positivity
  have s1 : σ ≤ 1 := by
    rw [hσ, div_le_one hF']
    exact_mod_cast (Nat.mod_lt i (by omega)).le
  have hx : (i : ℝ) / c.factor = ((i / c.factor : ℕ) : ℝ) + σ := by
    rw [hσ, eq_comm]
    field_simp
    rw [mul_comm]
    exact_mod_cast Nat.div_add_mod i c.factor
  have h3 := h2 s j i hs hj hi'
  rw [ht, hx, simple_point C s lon lat r _ hr (by omega) t σ t0 t1 s0 s1] at h3
  obtain ⟨β, ρ, hρ, hβ, -, eP⟩ := C108_cell 6370997 lon lat (s * 10 + r) (i / c.factor) e f e' f' (t := t) hcell.zenith.1 hcell.zenith.2.1
    hcell.zenith.2.2 hcell.left hcell.right s0 s1 sp hcell.p00 hcell.p01 hcell.p10 hcell.p11
  refine ⟨β, hβ, fun Q hQ hax => ?_⟩
  rw [← hQ] at eP
  generalize hP : cellMean 6370997 lon lat (s * 10 + r) (i / c.factor) t σ = P at *
  have hax' : axisDistSq P ≠ 0 := by
    rw [eP, axisDistSq_scale]
    exact mul_ne_zero (pow_ne_zero 2 hρ.ne') hax
  have o1 := congrArg Prod.fst h3
  have o2 := congrArg Prod.snd h3
  simp only at o1 o2
  rw [o1, o2]
  generalize s * 10 + r = m at *
  generalize i / c.factor = l at *
  constructor
  · obtain ⟨B, hB, eB, -⟩ := C91_lat 6370997 d (by norm_num) hd0 hd ![(1 - t) * (1 - σ), (1 - t) * σ, t * (1 - σ), t * σ]
      ![lon m l, lon m (l + 1), lon (m + 1) l, lon (m + 1) (l + 1)] ![lat m l, lat m (l + 1), lat (m + 1) l, lat (m + 1) (l + 1)]
      (by
        have t1' : 0 ≤ 1 - t := by linarith
        have s1' : 0 ≤ 1 - σ := by linarith
        intro k; fin_cases k <;> simp <;> positivity)
      (by simp [Fin.sum_univ_four]; ring)
      (by intro k k'; fin_cases k <;> fin_cases k' <;> simp <;> apply near <;> simp) P
      (by
        rw [← hP]
        simp only [wsum, Fin.sum_univ_four, cellMean, bilinear]
        simp
        refine ⟨?_, ?_, ?_⟩ <;> ring) hax'
    rw [eP, geocentricLat_scale hρ] at hB
    exact ⟨B, hB, eB⟩
  · intro han
    obtain ⟨A, hA, eA, -⟩ := C91_lon 6370997 (8 / 10) true P (by norm_num) hax' (by rw [eP, onAntimeridian_scale hρ]; exact han)
    refine ⟨A, ?_, eA⟩
    rw [eP] at hA
    exact hasLon_scale hρ hA

/-! ### an example: scans along meridians a hundredth of a degree apart -/

private theorem meridian (lon θ : ℝ) : spherePoint 6370997 lon (deg θ) = scanPoint 6370997 (cos (rad lon), sin (rad lon), 0) (0, 0, 1) θ := by
  have hd : rad (deg θ) = θ := by unfold rad deg; field_simp
  simp only [spherePoint, scanPoint, hd]
  refine Prod.ext ?_ (Prod.ext ?_ ?_) <;> simp only [] <;> ring

private theorem near_small {lon lon' lat lat' δ : ℝ} (h : |rad lon - rad lon'| + |rad lat - rad lat'| ≤ δ) :
    distSq (spherePoint 6370997 lon lat) (spherePoint 6370997 lon' lat') ≤ 3 * δ ^ 2 * 6370997 ^ 2 := by
  have lip : ∀ {u u' v v' : ℝ}, |u| ≤ 1 → |v'| ≤ 1 → |u - u'| + |v - v'| ≤ δ → (u * v - u' * v') ^ 2 ≤ δ ^ 2 := by
    intro u u' v v' h1 h2 h3
    rw [← sq_abs]
    refine pow_le_pow_left₀ (abs_nonneg _) ?_ 2
    rw [show u * v - u' * v' = u * (v - v') + (u - u') * v' by ring]
    refine (abs_add_le _ _).trans ?_
    rw [abs_mul, abs_mul]
    nlinarith [mul_le_mul_of_nonneg_right h1 (abs_nonneg (v - v')), mul_le_mul_of_nonneg_left h2 (abs_nonneg (u - u'))]
  have l1 : ∀ x y : ℝ, |cos x - cos y| ≤ |x - y| := fun x y => Real.abs_cos_sub_cos_le x y
  have l2 : ∀ x y : ℝ, |sin x - sin y| ≤ |x - y| := fun x y => Real.abs_sin_sub_sin_le x y
  have g1 := lip (abs_cos_le_one (rad lat)) (abs_cos_le_one (rad lon')) (u' := cos (rad lat')) (v := cos (rad lon)) (by linarith [l1 (rad lat) (rad lat'), l1 (rad lon) (rad lon')])
  have g2 := lip (abs_cos_le_one (rad lat)) (abs_sin_le_one (rad lon')) (u' := cos (rad lat')) (v := sin (rad lon)) (by linarith [l1 (rad lat) (rad lat'), l2 (rad lon) (rad lon')])
  have g3 : (sin (rad lat) - sin (rad lat')) ^ 2 ≤ δ ^ 2 := by
    rw [← sq_abs]
    exact pow_le_pow_left₀ (abs_nonneg _) (by linarith [l2 (rad lat) (rad lat'), abs_nonneg (rad lon - rad lon')]) 2
  simp only [distSq, spherePoint]
  nlinarith

/-- the latitude of tie column `j` -/
private noncomputable def exLat (j : Nat) : ℝ := deg (rad (40 + 0.1 * j) - phiR (rad (40 + 0.1 * j)))

private theorem exLat_step {j k : Nat} (h : |(j : ℝ) - k| ≤ 1) : |rad (exLat j) - rad (exLat k)| ≤ 0.004 := by
  have hd : ∀ θ, rad (deg θ) = θ := fun θ => by unfold rad deg; field_simp
  unfold exLat
  rw [hd, hd]
  have h1 := phiR_lip (rad (40 + 0.1 * j)) (rad (40 + 0.1 * k))
  have h2 : |rad (40 + 0.1 * (j : ℝ)) - rad (40 + 0.1 * k)| ≤ 0.0018 := by
    unfold rad
    rw [show (40 + 0.1 * (j : ℝ)) * (π / 180) - (40 + 0.1 * k) * (π / 180) = 0.1 * (π / 180) * (j - k) by ring, abs_mul,
      abs_of_pos (by positivity)]
    have hpi := pi_lt_d2
    have : 0.1 * (π / 180) * |(j : ℝ) - k| ≤ 0.1 * (π / 180) * 1 := by gcongr
    linarith
  have hk := kap_bounds.2
  have hk0 := kap_pos
  have h3 : kap * |rad (40 + 0.1 * (j : ℝ)) - rad (40 + 0.1 * k)| ≤ 1 * 0.0018 := mul_le_mul (by linarith) h2 (abs_nonneg _) (by norm_num)
  rw [show ∀ u v u' v' : ℝ, u - v - (u' - v') = (u - u') - (v - v') by intros; ring]
  exact (abs_sub _ _).trans (by linarith)

/-- one scan of 200 tie columns, along meridians: the pixel of row 2 a quarter of the way from tie column 100 to 101 -/
example (junk : Nat → Nat → Nat → Nat → FP ℝ) : ∃ out θ ζ β,
    SConv.run .km1to250 Verif.ModisSimple.mcLinear ⟨1 * 10, 200, fun i _ => val (0.01 * i)⟩ ⟨1 * 10, 200, fun _ j => val (exLat j)⟩ junk = .ok out ∧
    Seen Rk Hk (phiR (rad 50) + 1 / 4 * (phiR (rad 50.1) - phiR (rad 50))) θ ζ ∧ |β - θ| ≤ (phiR (rad 50.1) - phiR (rad 50)) ^ 2 ∧
    ∀ Q, Q = chordPoint (scanPoint 6370997 (cos (rad 0), sin (rad 0), 0) (0, 0, 1) β) (scanPoint 6370997 (cos (rad 0.01), sin (rad 0.01), 0) (0, 0, 1) β) (1 / 8) →
      axisDistSq Q ≠ 0 → ∃ B, |B - geocentricLat Q| ≤ 20 * 0.0001 ∧ out.2.cell 2 401 = val B := by
  have ha : |(50 : ℝ)| ≤ 70 := by norm_num [abs_le]
  have hb : |(50.1 : ℝ)| ≤ 70 := by norm_num [abs_le]
  obtain ⟨θ, ζ, sp⟩ := seen_between (phi_mTop ha) (phi_mTop hb) (s := 1 / 4) (by norm_num) (by norm_num)
  obtain ⟨out, h1, h2⟩ := C108_run .km1to250 1 200 (by norm_num) (fun i _ => 0.01 * i) (fun _ j => exLat j) junk
  have e1 : exLat 100 = deg (rad 50 - phiR (rad 50)) := by unfold exLat; norm_num
  have e2 : exLat 101 = deg (rad 50.1 - phiR (rad 50.1)) := by unfold exLat; norm_num
  obtain ⟨β, b1, b2⟩ := h2 0 (by norm_num) 2 (by decide) 401 (by decide) 0 (by norm_num) (1 / 8) (by norm_num [SConv.factor]) (by norm_num) (by norm_num)
    (cos (rad 0), sin (rad 0), 0) (0, 0, 1) (cos (rad 0.01), sin (rad 0.01), 0) (0, 0, 1) 50 50.1 (phiR (rad 50)) (phiR (rad 50.1))
    (rad 50 - phiR (rad 50)) (rad 50.1 - phiR (rad 50.1)) θ ζ 0.0001
    { zenith := ⟨ha, hb, by norm_num [abs_le]⟩
      left := seen_zenith ha
      right := seen_zenith hb
      p00 := by rw [← meridian]; simp [SConv.factor, e1]
      p01 := by rw [← meridian]; simp [SConv.factor, e2]
      p10 := by rw [← meridian]; simp [SConv.factor, e1]
      p11 := by rw [← meridian]; simp [SConv.factor, e2] }
    (by simpa [SConv.factor] using sp) (by norm_num) (by norm_num)
    (by
      intro i hi j hj i' hi' j' hj'
      refine (near_small (δ := 0.005) ?_).trans (by norm_num)
      have g1 : |(i : ℝ) - i'| ≤ 1 := by
        simp at hi hi'
        rcases hi with rfl | rfl <;> rcases hi' with rfl | rfl <;> norm_num
      have g2 : |(j : ℝ) - j'| ≤ 1 := by
        simp [SConv.factor] at hj hj'
        rcases hj with rfl | rfl <;> rcases hj' with rfl | rfl <;> norm_num
      have g3 := exLat_step g2
      have g4 : |rad (0.01 * (i : ℝ)) - rad (0.01 * i')| ≤ 0.0002 := by
        unfold rad
        rw [show 0.01 * (i : ℝ) * (π / 180) - 0.01 * i' * (π / 180) = 0.01 * (π / 180) * (i - i') by ring, abs_mul, abs_of_pos (by positivity)]
        have hpi := pi_lt_d2
        have : 0.01 * (π / 180) * |(i : ℝ) - i'| ≤ 0.01 * (π / 180) * 1 := by gcongr
        linarith
      linarith)
  exact ⟨out, θ, ζ, β, h1, sp, b1, fun Q hQ hax => (b2 Q hQ hax).1⟩

end Verif.Props
