import Verif.Proofs.OvGeo
import Verif.Proofs.OvInst
import Verif.Proofs.MxCoefErr

/-!
# The coefficients of the MODIS interpolator are bounded for all zenith angles

Two different numbers of `p` bits differ by at least `2^-(p+1)` of the larger one, and the numerators of the coefficients are at most
proportional to the angles: the coefficients are at most of the order of `2^p`, whatever the zenith angles.
-/

namespace Verif.Mx
open Verif Verif.Geo Verif.Modis Verif.FlGeo Verif.Err
variable {q : Mixed} {ε : ℝ}

private theorem rep_apart_aux {m n e f : ℤ} {p : Nat} (hm : |m| < 2 ^ p) (hef : e ≤ f)
    (hne : (m : ℝ) * (2 : ℝ) ^ e ≠ n * (2 : ℝ) ^ f) :
    |(m : ℝ) * (2 : ℝ) ^ e| ≤ 2 ^ p * |(m : ℝ) * (2 : ℝ) ^ e - n * (2 : ℝ) ^ f| := by
  have h2 : (0 : ℝ) < (2 : ℝ) ^ e := by positivity
  obtain ⟨k, hk⟩ := Int.eq_ofNat_of_zero_le (sub_nonneg.2 hef)
  have hf : (2 : ℝ) ^ f = (2 : ℝ) ^ e * ((2 ^ k : ℤ) : ℝ) := by
    rw [show f = e + k by omega, zpow_add₀ (by norm_num)]
    push_cast
    rw [zpow_natCast]
  have hd : (m : ℝ) * (2 : ℝ) ^ e - n * (2 : ℝ) ^ f = ((m - n * 2 ^ k : ℤ) : ℝ) * (2 : ℝ) ^ e := by
    rw [hf]; push_cast; ring
  have hz : m - n * 2 ^ k ≠ 0 := by
    intro h0
    apply hne
    rw [← sub_eq_zero, hd, h0]; simp
  rw [hd, abs_mul, abs_mul, abs_of_pos h2, ← mul_assoc]
  refine mul_le_mul_of_nonneg_right ?_ h2.le
  have h1 : (1 : ℝ) ≤ |((m - n * 2 ^ k : ℤ) : ℝ)| := by exact_mod_cast Int.one_le_abs hz
  have h3 : |(m : ℝ)| ≤ 2 ^ p := by exact_mod_cast hm.le
  nlinarith [show (0 : ℝ) < 2 ^ p by positivity]

/-- different numbers of `p` bits are apart -/
theorem rep_apart {p : Nat} {x y : ℝ} (hx : Rep p x) (hy : Rep p y) (hne : x ≠ y) : |x| ≤ 2 ^ (p + 1) * |x - y| := by
  have hp : (1 : ℝ) ≤ 2 ^ p := one_le_pow₀ (by norm_num)
  have hd := abs_nonneg (x - y)
  rw [pow_succ]
  obtain ⟨m, e, hm, rfl⟩ := hx
  obtain ⟨n, f, hn, rfl⟩ := hy
  rcases le_total e f with h | h
  · have := rep_apart_aux hm h hne
    have h0 : 0 ≤ (2 : ℝ) ^ p * |(m : ℝ) * (2 : ℝ) ^ e - n * (2 : ℝ) ^ f| := by positivity
    linarith
  · have h1 := rep_apart_aux hn h hne.symm
    rw [abs_sub_comm] at h1
    have h2 := abs_sub_abs_le_abs_sub ((m : ℝ) * (2 : ℝ) ^ e) (n * (2 : ℝ) ^ f)
    nlinarith

/-- `|arcsin v| ≤ (pi / 2) |v|` -/
theorem abs_arcsin_le {v : ℝ} (hv : |v| ≤ 1) : |Real.arcsin v| ≤ 1.58 * |v| := by
  rw [Fl.abs_arcsin]
  have h0 := Real.arcsin_nonneg.2 (abs_nonneg v)
  have h1 := Real.mul_le_sin h0 (Real.arcsin_le_pi_div_two _)
  rw [Real.sin_arcsin (by linarith [abs_nonneg v]) hv] at h1
  have hp := Real.pi_pos
  have h2 : Real.arcsin |v| ≤ Real.pi / 2 * |v| := by
    rw [div_mul_eq_mul_div, div_le_iff₀ hp] at h1
    linarith
  have := Real.pi_lt_d2
  norm_num at this ⊢
  nlinarith [abs_nonneg v]

theorem arcsin_shrink {v x : ℝ} (hv1 : |v| ≤ 1) (hv : |v| ≤ 0.91 * |Real.sin x|) : |Real.arcsin v| ≤ 0.91 * |x| := by
  rw [Fl.abs_arcsin]
  by_cases hx : 0.91 * |x| ≤ Real.pi / 2
  · have hpi := Real.pi_pos
    have hxp : |x| ≤ Real.pi := by norm_num at hx; linarith
    have hs : |Real.sin x| = Real.sin |x| := Fl.abs_sin_of hxp
    rw [Real.arcsin_le_iff_le_sin ⟨by linarith [abs_nonneg v], hv1⟩ ⟨by have := abs_nonneg x; linarith, hx⟩]
    refine hv.trans ?_
    rw [hs]
    have hc := strictConcaveOn_sin_Icc.concaveOn.2 (⟨le_rfl, hpi.le⟩ : (0 : ℝ) ∈ Set.Icc 0 Real.pi)
      (⟨abs_nonneg x, hxp⟩ : |x| ∈ Set.Icc 0 Real.pi) (show (0 : ℝ) ≤ 0.09 by norm_num) (show (0 : ℝ) ≤ 0.91 by norm_num) (by norm_num)
    simpa using hc
  · exact (Real.arcsin_le_pi_div_two _).trans (not_le.1 hx).le

/-- the angle at the satellite, for any angle -/
theorem phi_all (h : Prec q ε) (x : ℝ) :
    computePhi (sgl x : Mx q) = bad ∨ ∃ f, computePhi (sgl x : Mx q) = sgl f ∧ Rep q.s.p f ∧ |f| ≤ 0.92 * |x| := by
  have h0 := h.pos
  have h1 := h.le'
  obtain ⟨c1, _, _, _, c5, _⟩ := Fl.consts (hd12 h.hp)
  have hpos : 0 < Fl.fRH q.d := by linarith
  have hnum : Err.Rel (3.01 * (ε / 1000)) (q.d.rnd (Fl.fR q.d * q.d.sin x)) (Rk * Real.sin x) := by
    refine (((fR_rel h).mul (h.d.sin x) (by positivity)).rnd h.d.u).mono ?_
    nlinarith
  have hg : Err.Rel (6.1 * (ε / 1000)) (q.d.rnd (q.d.rnd (Fl.fR q.d * q.d.sin x) / Fl.fRH q.d)) (kap * Real.sin x) := by
    have h2 := (hnum.div (fRH_rel h) (by positivity) (by linarith)).mono (f := 5.04 * (ε / 1000)) (by
      rw [div_le_iff₀ (by linarith)]; nlinarith)
    have e : Rk * Real.sin x / (Rk + Hk) = kap * Real.sin x := by unfold kap; ring
    rw [e] at h2
    refine (h2.rnd h.d.u).mono ?_
    nlinarith
  have hk : kap ≤ 0.9 := by norm_num [kap, Rk, Hk]
  obtain ⟨g, eg⟩ : ∃ g, g = q.d.rnd (q.d.rnd (Fl.fR q.d * q.d.sin x) / Fl.fRH q.d) := ⟨_, rfl⟩
  have ec : computePhi (sgl x : Mx q) = Trig.toFloating (Trig.asin (dbl g)) := by
    unfold computePhi
    rw [satRH_eq, satR_eq, sin_sgl, dd_mul, dd_div_of _ hpos.ne', eg]
  rw [← eg] at hg
  rw [ec]
  by_cases hq : |g| ≤ 1
  · right
    rw [asin_dbl hq, toFloating_dbl]
    refine ⟨_, rfl, q.s.rep _, ?_⟩
    have hgs : |g| ≤ 0.91 * |Real.sin x| := by
      have h2 := hg.abs_le
      rw [abs_mul, abs_of_pos kap_pos] at h2
      have h3 := mul_le_mul_of_nonneg_right hk (abs_nonneg (Real.sin x))
      have h4 := abs_nonneg (Real.sin x)
      norm_num at h1 h3 ⊢
      nlinarith
    have ha := arcsin_shrink hq hgs
    have h5 := ((h.d.asin g hq).rnd h.s).abs_le
    refine h5.trans ?_
    have h6 : ε + ε / 1000 + ε * (ε / 1000) ≤ 0.001 := by norm_num at h1 ⊢; nlinarith
    have h7 := mul_le_mul_of_nonneg_right h6 (abs_nonneg (Real.arcsin g))
    have h8 := abs_nonneg x
    norm_num at ha h7 ⊢
    linarith
  · left
    rw [asin_dbl_bad hq]; rfl

/-- the zenith angle, for any angle at the satellite -/
theorem zeta_all (h : Prec q ε) (m : ℝ) :
    computeZeta (sgl m : Mx q) = bad ∨ ∃ z, computeZeta (sgl m : Mx q) = sgl z ∧ |z| ≤ 2 * |m| := by
  have h0 := h.pos
  have h1 := h.le'
  obtain ⟨c1, _, _, _, c5, _⟩ := Fl.consts (hd12 h.hp)
  have hpos : 0 < Fl.fR q.d := by linarith
  have hnum : Err.Rel (4.02 * (ε / 1000)) (q.d.rnd (Fl.fRH q.d * q.d.sin m)) ((Rk + Hk) * Real.sin m) := by
    refine (((fRH_rel h).mul (h.d.sin m) (by positivity)).rnd h.d.u).mono ?_
    obtain ⟨y, hy⟩ : ∃ y, y = ε / 1000 := ⟨_, rfl⟩
    have hy0 : 0 < y := by rw [hy]; positivity
    have hy1 : y ≤ 0.001 := by rw [hy]; linarith
    rw [← hy]
    have : y * y ≤ 0.001 * y := by nlinarith
    have : y * (y * y) ≤ 0.001 * y := by nlinarith
    nlinarith
  have hg : Err.Rel (6.1 * (ε / 1000)) (q.d.rnd (q.d.rnd (Fl.fRH q.d * q.d.sin m) / Fl.fR q.d)) (kap⁻¹ * Real.sin m) := by
    have h2 := (hnum.div (fR_rel h) (by positivity) (by linarith)).mono (f := 5.04 * (ε / 1000)) (by
      rw [div_le_iff₀ (by linarith)]; nlinarith)
    have e : (Rk + Hk) * Real.sin m / Rk = kap⁻¹ * Real.sin m := by rw [← inv_kap]; ring
    rw [e] at h2
    refine (h2.rnd h.d.u).mono ?_
    nlinarith
  obtain ⟨g, eg⟩ : ∃ g, g = q.d.rnd (q.d.rnd (Fl.fRH q.d * q.d.sin m) / Fl.fR q.d) := ⟨_, rfl⟩
  have ec : computeZeta (sgl m : Mx q) = Trig.toFloating (Trig.asin (dbl g)) := by
    unfold computeZeta
    rw [satRH_eq, satR_eq, sin_sgl, dd_mul, dd_div_of _ hpos.ne', eg]
  rw [← eg] at hg
  rw [ec]
  by_cases hq : |g| ≤ 1
  · right
    rw [asin_dbl hq, toFloating_dbl]
    refine ⟨_, rfl, ?_⟩
    have hk : kap⁻¹ ≤ 1.12 := by norm_num [kap, Rk, Hk]
    have hgs : |g| ≤ 1.13 * |m| := by
      have h2 := hg.abs_le
      have h4 := abs_nonneg (Real.sin m)
      have h5 : |Real.sin m| ≤ |m| := Real.abs_sin_le_abs
      rw [abs_mul, abs_of_pos (inv_pos.2 kap_pos)] at h2
      have h3 := mul_le_mul hk h5 h4 (by norm_num)
      have h6 : 0 ≤ kap⁻¹ * |Real.sin m| := by have := kap_pos; positivity
      norm_num at h1 h3 ⊢
      nlinarith
    have ha := abs_arcsin_le hq
    have h5 := ((h.d.asin g hq).rnd h.s).abs_le
    refine h5.trans ?_
    have h6 : ε + ε / 1000 + ε * (ε / 1000) ≤ 0.001 := by norm_num at h1 ⊢; nlinarith
    have h7 := mul_le_mul_of_nonneg_right h6 (abs_nonneg (Real.arcsin g))
    have h8 := abs_nonneg m
    norm_num at ha h7 hgs ⊢
    linarith
  · left
    rw [asin_dbl_bad hq]; rfl

/-- no limits: to use the bounds of `Verif.Proofs.OvGeo` -/
private def noLimit (m : Approx (Mx q)) : Limit m where
  fits _ := True
  bound := 10 ^ 37
  fits_of_le _ _ := trivial
  dbl _ := True
  wide := 10 ^ 75
  fits_of_le_wide _ _ _ := trivial
  dbl_toDouble _ := trivial
  dbl_add _ _ _ _ := trivial
  dbl_mul _ _ _ _ := trivial

private theorem sag_mag (m : Approx (Mx q)) (w : Nat) (hw : w ≤ 5) (x y : Mx q) : m.mag (Ov.sag w x y) ≤ 100 :=
  (Ov.sag_same (L := noLimit m) (by show (10 : ℝ) ^ 37 ≤ 10 ^ 37; exact le_rfl) w hw (Ov.Same.input (a := x) le_rfl) (Ov.Same.input (a := y) le_rfl)).2

private theorem quot_bound (m : Approx (Mx q)) {n d : Mx q} {Θ C T : ℝ} (hΘ : 0 ≤ Θ) (h1 : Θ ≤ T * m.mag d) (h2 : m.mag n ≤ C * Θ)
    (h0 : Θ = 0 → m.value d = some 0) (hC : 0 ≤ C) (hT : 0 ≤ T) : m.mag (n / d) ≤ 1.25 * C * T := by
  rcases hΘ.eq_or_lt with e | hpos
  · rw [m.mag_none (m.div_n n d (Or.inr (Or.inr (h0 e.symm))))]
    positivity
  · have h3 := m.mag_div n d
    have h4 := m.mag_nonneg (n / d)
    refine le_of_mul_le_mul_right ?_ hpos
    calc m.mag (n / d) * Θ ≤ m.mag (n / d) * (T * m.mag d) := by gcongr
      _ = T * (m.mag (n / d) * m.mag d) := by ring
      _ ≤ T * (1.25 * m.mag n) := by gcongr
      _ ≤ T * (1.25 * (C * Θ)) := by gcongr
      _ = _ := by ring

private theorem toS_cases (x : Mx q) : toS x = bad ∨ ∃ a, toS x = sgl a := by
  cases x
  · exact Or.inr ⟨_, rfl⟩
  · exact Or.inr ⟨_, rfl⟩
  · exact Or.inr ⟨_, rfl⟩
  · exact Or.inl rfl

/-- the angle at the centre of the earth, for any zenith angle -/
private theorem theta_all (h : Prec q ε) (x : Mx q) :
    computeTheta (cyDeg2rad x) (computePhi (cyDeg2rad x)) = bad ∨
    ∃ a f t, cyDeg2rad x = sgl a ∧ computePhi (sgl a : Mx q) = sgl f ∧ computeTheta (cyDeg2rad x) (computePhi (cyDeg2rad x)) = sgl t ∧
      Rep q.s.p t ∧ |f| ≤ |a| ∧ |a| ≤ 15 * |t| := by
  have h1 := h.le'
  rcases toS_cases (x * (Trig.pi / 180)) with e | ⟨a, e⟩
  · left
    have e' : cyDeg2rad x = bad := e
    rw [e']; rfl
  · have e' : cyDeg2rad x = sgl a := e
    rcases phi_all h a with e2 | ⟨f, e2, -, hf⟩
    · left
      rw [e', e2]; rfl
    · right
      refine ⟨a, f, _, e', e2, by rw [e', e2]; rfl, q.s.rep _, by linarith [abs_nonneg a], ?_⟩
      have h3 := (rel_rnd h.s (a - f)).le_abs
      have h4 := abs_sub_abs_le_abs_sub a f
      have h5 : |a - f| ≤ 1.01 * |q.s.rnd (a - f)| := by
        have := abs_nonneg (a - f)
        norm_num at h1 ⊢
        nlinarith
      show |a| ≤ 15 * |q.s.rnd (a - f)|
      have h6 := abs_nonneg (q.s.rnd (a - f))
      norm_num at hf h5
      linarith

/-- **All coefficients are bounded**: whatever the zenith angles, the expansion is at most `10^4 * 2^p` and the alignment at most
`10^6 * 2^p`, `p` the bits of a `float` (or they are not numbers). -/
theorem coef_all (h : Prec q ε) (w : Nat) (hw : w ≤ 5) (x y : Mx q) :
    (approx h).mag (expansionAlignment w x y).1 ≤ 10 ^ 4 * 2 ^ q.s.p ∧
    (approx h).mag (expansionAlignment w x y).2 ≤ 10 ^ 6 * 2 ^ q.s.p := by
  obtain ⟨m, em⟩ : ∃ m, m = approx h := ⟨_, rfl⟩
  have hv (z : Mx q) : m.value z = value z := by rw [em]; rfl
  rw [← em]
  have hP : (1 : ℝ) ≤ 2 ^ q.s.p := one_le_pow₀ (by norm_num)
  have h1 := h.le'
  obtain ⟨θa, ea⟩ : ∃ t, t = computeTheta (cyDeg2rad x) (computePhi (cyDeg2rad x)) := ⟨_, rfl⟩
  obtain ⟨θb, eb⟩ : ∃ t, t = computeTheta (cyDeg2rad y) (computePhi (cyDeg2rad y)) := ⟨_, rfl⟩
  obtain ⟨φ, eφ⟩ : ∃ t, t = (computePhi (cyDeg2rad x) + computePhi (cyDeg2rad y)) / 2 := ⟨_, rfl⟩
  obtain ⟨ζ, eζ⟩ : ∃ t, t = computeZeta φ := ⟨_, rfl⟩
  obtain ⟨d, ed⟩ : ∃ t, t = if Arith.eq θa θb then θa * 2 else θa - θb := ⟨_, rfl⟩
  have E : expansionAlignment w x y = (4 * (((θa + θb) / 2 - computeTheta ζ φ) / d),
      Trig.toFloating (4 * Ov.sag w φ ζ * Trig.sin ζ / d)) := by
    unfold expansionAlignment Ov.sag
    rw [ed, eζ, eφ, ea, eb]
  rw [E]
  have bad_d (hd : d = bad) : m.mag (4 * (((θa + θb) / 2 - computeTheta ζ φ) / d)) ≤ 10 ^ 4 * 2 ^ q.s.p ∧
      m.mag (Trig.toFloating (4 * Ov.sag w φ ζ * Trig.sin ζ / d)) ≤ 10 ^ 6 * 2 ^ q.s.p := by
    rw [hd, div_bad, div_bad, mul_bad, toFloating_bad, m.mag_none (by rw [hv]; rfl)]
    constructor <;> positivity
  rcases theta_all h x with e | ⟨a, f, ta, a1, a2, a3, a4, a5, a6⟩
  · refine bad_d ?_
    rw [ed, ea, e]; rfl
  rcases theta_all h y with e | ⟨b, g, tb, b1, b2, b3, b4, b5, b6⟩
  · refine bad_d ?_
    rw [ed, eb, e]
    have : Arith.eq θa (bad : Mx q) = false := by cases θa <;> rfl
    rw [this]
    exact sub_bad _
  rw [← ea] at a3
  rw [← eb] at b3
  clear E bad_d
  have ms (z : ℝ) : m.mag (sgl z : Mx q) = |z| := m.mag_some (by rw [hv]; rfl)
  have m2 : 1.5 ≤ m.mag (2 : Mx q) := by have := (m.mag_ofInt 2).2; norm_num at this ⊢; exact this
  obtain ⟨Θ, eΘ⟩ : ∃ t, t = max |ta| |tb| := ⟨_, rfl⟩
  have ta' : |ta| ≤ Θ := by rw [eΘ]; exact le_max_left _ _
  have tb' : |tb| ≤ Θ := by rw [eΘ]; exact le_max_right _ _
  have hΘ : 0 ≤ Θ := (abs_nonneg ta).trans ta'
  -- the mean angle
  obtain ⟨p, ep⟩ : ∃ p, φ = sgl p := ⟨_, by rw [eφ, a1, b1, a2, b2, ss_add, two_eq, si_div _ 2 (by norm_num)]⟩
  have hφ : m.mag φ ≤ 32 * Θ := by
    have h2 := m.mag_div (sgl f + sgl g : Mx q) 2
    have h3 := m.mag_add (sgl f : Mx q) (sgl g)
    rw [ms, ms] at h3
    have h4 : φ = (sgl f + sgl g) / 2 := by rw [eφ, a1, b1, a2, b2]
    rw [← h4] at h2
    have h5 := m.mag_nonneg φ
    have h6 := mul_le_mul_of_nonneg_left m2 h5
    norm_num at h2 h3 h6 ⊢
    linarith
  have hp : |p| ≤ 32 * Θ := by rw [ep, ms] at hφ; exact hφ
  have hζ : ζ = bad ∨ ∃ z, ζ = sgl z ∧ |z| ≤ 64 * Θ := by
    rw [eζ, ep]
    rcases zeta_all h p with e | ⟨z, e, hz⟩
    · exact Or.inl e
    · exact Or.inr ⟨z, e, by linarith⟩
  have hζm : m.mag ζ ≤ 64 * Θ ∧ m.mag (Trig.sin ζ) ≤ 65 * Θ := by
    rcases hζ with e | ⟨z, e, hz⟩
    · rw [e, m.mag_none (by rw [hv]; rfl), m.mag_none (x := Trig.sin bad) (by rw [hv]; rfl)]
      constructor <;> positivity
    · rw [e, ms, sin_sgl, m.mag_some (x := dbl (q.d.sin z)) (by rw [hv]; rfl)]
      refine ⟨hz, ?_⟩
      have h2 := (h.d.sin z).abs_le
      have h3 : |Real.sin z| ≤ |z| := Real.abs_sin_le_abs
      have h4 := abs_nonneg (Real.sin z)
      have h0 := h.pos
      norm_num at h1
      nlinarith
  -- the denominator
  have hd : Θ ≤ 1.25 * 2 ^ (q.s.p + 1) * m.mag d ∧ (Θ = 0 → m.value d = some 0) := by
    rw [ed, a3, b3, eq_ss]
    by_cases e : ta = tb
    · have eΘ' : Θ = |ta| := by rw [eΘ, ← e, max_self]
      rw [if_pos (by simpa using e)]
      have h2 := (m.mag_mul (sgl ta : Mx q) 2).2
      rw [ms] at h2
      have h3 := m.mag_nonneg (sgl ta * 2 : Mx q)
      constructor
      · rw [eΘ', pow_succ]
        have h4 : |ta| ≤ m.mag (sgl ta * 2 : Mx q) := by
          have := abs_nonneg ta
          norm_num at h2 m2
          nlinarith
        nlinarith
      · intro h0
        have h5 : ta = 0 := by rw [eΘ'] at h0; exact abs_eq_zero.1 h0
        obtain ⟨c, c1, c2⟩ := m.mul_v (sgl ta : Mx q) 2 ta 2 (by rw [hv]; rfl) (by rw [hv]; show some (((2 : ℤ)) : ℝ) = _; norm_num)
        rw [c1]
        rw [h5] at c2
        norm_num at c2
        rw [c2]
    · rw [if_neg (by simpa using e), ss_sub, ms]
      have h2 := rep_apart a4 b4 e
      have h3 := rep_apart b4 a4 (Ne.symm e)
      rw [abs_sub_comm] at h3
      have h4 := (rel_rnd h.s (ta - tb)).le_abs
      have h5 : |ta - tb| ≤ 1.25 * |q.s.rnd (ta - tb)| := by
        have := abs_nonneg (ta - tb)
        norm_num at h1 ⊢
        nlinarith
      constructor
      · have h6 : Θ ≤ 2 ^ (q.s.p + 1) * |ta - tb| := by rw [eΘ]; exact max_le h2 h3
        have h7 := mul_le_mul_of_nonneg_left h5 (show (0 : ℝ) ≤ 2 ^ (q.s.p + 1) by positivity)
        linarith
      · intro h0
        exfalso
        apply e
        rw [h0] at ta' tb'
        rw [abs_nonpos_iff.1 ta', abs_nonpos_iff.1 tb']
  have hT : (0 : ℝ) ≤ 1.25 * 2 ^ (q.s.p + 1) := by positivity
  constructor
  · have h2 := m.mag_div (θa + θb) 2
    have h3 := m.mag_add θa θb
    have h4 := m.mag_sub ζ φ
    have h5 := m.mag_sub ((θa + θb) / 2) (computeTheta ζ φ)
    have h6 := m.mag_nonneg ((θa + θb) / 2)
    have h7 : m.mag (computeTheta ζ φ) ≤ 1.25 * (m.mag ζ + m.mag φ) := h4
    have h8 : m.mag θa ≤ Θ := by rw [a3, ms]; exact ta'
    have h9 : m.mag θb ≤ Θ := by rw [b3, ms]; exact tb'
    have h10 : m.mag ((θa + θb) / 2) ≤ 3 * Θ := by norm_num at h2 h3 m2; nlinarith
    have h11 : m.mag ((θa + θb) / 2 - computeTheta ζ φ) ≤ 160 * Θ := by
      norm_num at h5 h7
      linarith [hζm.1]
    have h12 := quot_bound m hΘ hd.1 h11 hd.2 (by norm_num) hT
    have h13 := (m.mag_mul (4 : Mx q) (((θa + θb) / 2 - computeTheta ζ φ) / d)).1
    have h14 : m.mag (4 : Mx q) ≤ 5 := by have := (m.mag_ofInt 4).1; norm_num at this ⊢; exact this
    refine h13.trans ?_
    have h15 := mul_le_mul h14 h12 (m.mag_nonneg _) (by norm_num)
    rw [pow_succ] at h15
    norm_num at h15 ⊢
    linarith
  · have h2 := (m.mag_mul (4 : Mx q) (Ov.sag w φ ζ)).1
    have h14 : m.mag (4 : Mx q) ≤ 5 := by have := (m.mag_ofInt 4).1; norm_num at this ⊢; exact this
    have h3 := mul_le_mul h14 (sag_mag m w hw φ ζ) (m.mag_nonneg _) (by norm_num)
    have h4 := (m.mag_mul (4 * Ov.sag w φ ζ) (Trig.sin ζ)).1
    have h5 : m.mag (4 * Ov.sag w φ ζ) ≤ 625 := by norm_num at h2 h3 ⊢; linarith
    have h6 := mul_le_mul h5 hζm.2 (m.mag_nonneg _) (by norm_num)
    have h7 : m.mag (4 * Ov.sag w φ ζ * Trig.sin ζ) ≤ 51000 * Θ := by norm_num at h4 h6 ⊢; linarith
    have h8 := quot_bound m hΘ hd.1 h7 hd.2 (by norm_num) hT
    have h9 := (m.mag_toFloating (4 * Ov.sag w φ ζ * Trig.sin ζ / d)).1
    refine h9.trans ?_
    rw [pow_succ] at h8
    norm_num at h8 ⊢
    linarith

end Verif.Mx
