import Verif.Proofs.GeoErr
import Verif.Proofs.FlGeo

/-!
# Error bounds of the parts of the conversions in floating point arithmetic
-/

namespace Verif.Err
open Verif Fl Verif.Geo Verif.FlGeo
variable {r : Rounding} {ε : ℝ}

/-- The library functions have relative error at most `ε`, and so has a rounding. -/
structure LibRel (r : Rounding) (ε : ℝ) : Prop where
  u : r.u ≤ ε
  sin : ∀ x, Rel ε (r.sin x) (Real.sin x)
  cos : ∀ x, Rel ε (r.cos x) (Real.cos x)
  asin : ∀ x, |x| ≤ 1 → Rel ε (r.asin x) (Real.arcsin x)
  acos : ∀ x, |x| ≤ 1 → Rel ε (r.acos x) (Real.arccos x)

/-- correctly rounded functions have the relative error of the rounding -/
theorem libRel_correct (p : Nat) (hp : 2 ≤ p) : LibRel (Rounding.correct p hp) (Rounding.correct p hp).u := by
  have key : ∀ x, Rel (Rounding.correct p hp).u ((Rounding.correct p hp).rnd x) x := rel_rnd le_rfl
  exact ⟨le_rfl, fun x => key _, fun x => key _, fun x _ => key _, fun x _ => key _⟩

theorem LibRel.pos (h : LibRel r ε) : 0 < ε := lt_of_lt_of_le r.u_pos h.u

theorem hyp_rel (h : LibRel r ε) (hε : ε ≤ 1 / 4096) (x y : ℝ) : Rel (3.01 * ε) (hyp r x y) √(x ^ 2 + y ^ 2) := by
  have h0 := h.pos
  unfold hyp
  have h1 := (rel_rnd h.u (x * x)).add (rel_rnd h.u (y * y)) (mul_self_nonneg x) (mul_self_nonneg y)
  have h2 := (h1.rnd h.u).sqrt (sum_nonneg x y) (add_nonneg (mul_self_nonneg x) (mul_self_nonneg y))
  have h3 := h2.rnd h.u
  rw [show x ^ 2 + y ^ 2 = x * x + y * y by ring]
  refine h3.mono ?_
  have := mul_nonneg h0.le (sub_nonneg.2 hε)
  nlinarith

theorem degFactor_rel (h : LibRel r ε) (hε : ε ≤ 1 / 4096) : Rel (2.01 * ε) (degFactor r) (180 / Real.pi) := by
  have h0 := h.pos
  have h1 : Rel ((0 + ε) / (1 - ε)) (180 / r.rnd Real.pi) (180 / Real.pi) :=
    (Rel.refl le_rfl 180).div (rel_rnd h.u Real.pi) le_rfl (by linarith)
  have h2 : (0 + ε) / (1 - ε) ≤ 1.001 * ε := by
    rw [div_le_iff₀ (by linarith)]; nlinarith
  refine ((h1.mono h2).rnd h.u).mono ?_
  nlinarith

/-- `rad2deg` -/
theorem deg_err (h : LibRel r ε) (hε : ε ≤ 1 / 4096) {A θ m : ℝ} (hA : Rel ε A θ) (hm : |θ| ≤ m) :
    |r.rnd (A * degFactor r) - θ * (180 / Real.pi)| ≤ 4.03 * ε * (m * (180 / Real.pi)) := by
  have h0 := h.pos
  have h1 := ((hA.mul (degFactor_rel h hε) h0.le).rnd h.u)
  have h2 : Rel (4.03 * ε) (r.rnd (A * degFactor r)) (θ * (180 / Real.pi)) := h1.mono (by
    have := mul_nonneg h0.le (sub_nonneg.2 hε)
    nlinarith)
  have hp : 0 < 180 / Real.pi := by have := Real.pi_pos; positivity
  refine le_trans h2 ?_
  rw [abs_mul, abs_of_pos hp]
  gcongr

theorem c180 : Real.pi * (180 / Real.pi) = 180 := by field_simp
theorem c57 : 180 / Real.pi ≤ 57.33 := by
  rw [div_le_iff₀ Real.pi_pos]; have := Real.pi_gt_d2; linarith
theorem c0 : 0 < 180 / Real.pi := by have := Real.pi_pos; positivity

/-- sign times magnitude is not rounded -/
theorem rnd_sign_mul {D : ℝ} (hD : Rep r.p D) (y : ℝ) :
    r.rnd (D * (if 0 < y then 1 else if y < 0 then -1 else 0)) = D * (if 0 < y then 1 else if y < 0 then -1 else 0) ∧
    r.rnd ((if 0 < y then 1 else if y < 0 then -1 else 0) * D) = (if 0 < y then 1 else if y < 0 then -1 else 0) * D := by
  split_ifs
  · simp [r.rnd_rep hD]
  · simp [r.rnd_rep hD.neg]
  · simp

theorem csign_val (a : ℝ) : csign (val a : Fl r) = val (if 0 < a then 1 else if a < 0 then -1 else 0) := by
  unfold csign
  rw [zero_eq, one_eq]
  rcases lt_trichotomy a 0 with h | h | h
  · simp [h, not_lt_of_gt h]
  · simp [h]
  · simp [h]

/-- the polar angle computed from x and y -/
theorem lon_err (hp : 8 ≤ r.p) (h : LibRel r ε) (hε : ε ≤ 1 / 4096) {x y : ℝ} (hx : Rep r.p x) (hxy : y ≠ 0 ∨ 0 < x) :
    ∃ L mu, Rep r.p L ∧
      rad2deg (Trig.acos ((val x : Fl r) / val (hyp r x y))) * val (if 0 < y then 1 else if y < 0 then -1 else 0) = val L ∧
      |mu| ≤ Real.pi ∧ x = √(x ^ 2 + y ^ 2) * Real.cos mu ∧ y = √(x ^ 2 + y ^ 2) * Real.sin mu ∧
      |L - mu * (180 / Real.pi)| ≤ 270 * √ε := by
  have h0 := h.pos
  have hs0 := Real.sqrt_nonneg ε
  have hs2 : √ε * √ε = ε := Real.mul_self_sqrt h0.le
  have hs : √ε ≤ 1 / 64 := by
    rw [Real.sqrt_le_left (by norm_num)]; linarith
  have hne : ¬ (x = 0 ∧ y = 0) := by rintro ⟨rfl, rfl⟩; simp at hxy
  have hh0 : hyp r x y ≠ 0 := fun e => hne ((hyp_eq_zero x y).1 e)
  have hhpos : 0 < hyp r x y := lt_of_le_of_ne (hyp_nonneg x y) (Ne.symm hh0)
  have hsum : 0 < x ^ 2 + y ^ 2 := by
    rcases hxy with h' | h'
    · have := sq_pos_of_ne_zero h'; have := sq_nonneg x; linarith
    · have := sq_nonneg y; positivity
  have hH := Real.sqrt_pos.2 hsum
  have hHs := Real.sq_sqrt hsum.le
  obtain ⟨H, eH⟩ : ∃ H, H = √(x ^ 2 + y ^ 2) := ⟨_, rfl⟩
  have hrel := hyp_rel h hε x y
  rw [← eH] at hH hHs hrel ⊢
  -- the computed cosine
  have hc1 : |r.rnd (x / hyp r x y)| ≤ 1 := by
    apply r.rnd_abs_le (rep_one r.hp1)
    rw [abs_div, abs_of_pos hhpos, div_le_one hhpos]
    exact abs_le_hyp hx y
  have hxH : |x / H| ≤ 1 := by
    rw [abs_div, abs_of_pos hH, div_le_one hH]
    exact abs_le_of_sq_le_sq (by have := sq_nonneg y; linarith) hH.le
  have hc2 : |r.rnd (x / hyp r x y) - x / H| ≤ 4.03 * ε := by
    have h1 := (Rel.refl (le_refl (0 : ℝ)) x).div hrel le_rfl (by linarith)
    have h2 : (0 + 3.01 * ε) / (1 - 3.01 * ε) ≤ 3.0125 * ε := by
      rw [div_le_iff₀ (by linarith)]; nlinarith
    have h3 : Rel (4.03 * ε) (r.rnd (x / hyp r x y)) (x / H) := ((h1.mono h2).rnd h.u).mono (by nlinarith)
    exact le_trans h3 (by nlinarith [abs_nonneg (x / H)])
  obtain ⟨c, ec⟩ : ∃ c, c = r.rnd (x / hyp r x y) := ⟨_, rfl⟩
  rw [← ec] at hc1 hc2
  have hth : |Real.arccos c - Real.arccos (x / H)| ≤ 4.48 * √ε := by
    refine (arccos_holder hc1 hxH).trans ?_
    have h1 : √(|c - x / H| / 2) ≤ 1.42 * √ε := by
      rw [Real.sqrt_le_left (by positivity)]
      nlinarith
    have h2 := Real.pi_lt_d2
    have h3 := Real.pi_pos
    have h4 := mul_le_mul h2.le h1 (Real.sqrt_nonneg (|c - x / H| / 2)) (by norm_num)
    linarith
  have hD := deg_err h hε (h.acos c hc1) (m := Real.pi)
    (by rw [abs_of_nonneg (Real.arccos_nonneg c)]; exact Real.arccos_le_pi c)
  rw [c180] at hD
  obtain ⟨D, eD⟩ : ∃ D, D = r.rnd (r.acos c * degFactor r) := ⟨_, rfl⟩
  rw [← eD] at hD
  have hDrep : Rep r.p D := eD ▸ r.rep _
  have hDerr : |D - Real.arccos (x / H) * (180 / Real.pi)| ≤ 270 * √ε := by
    have e : D - Real.arccos (x / H) * (180 / Real.pi)
        = (D - Real.arccos c * (180 / Real.pi)) + (Real.arccos c - Real.arccos (x / H)) * (180 / Real.pi) := by ring
    rw [e]
    refine (abs_add_le _ _).trans ?_
    rw [abs_mul, abs_of_pos c0]
    have h1 := c57
    have h2 := c0
    have h3 : |Real.arccos c - Real.arccos (x / H)| * (180 / Real.pi) ≤ (4.48 * √ε) * 57.33 :=
      mul_le_mul hth h1 h2.le (by positivity)
    have h4 : ε ≤ √ε / 64 := by nlinarith
    linarith
  have hcos := Real.cos_arccos (abs_le.1 hxH).1 (abs_le.1 hxH).2
  have hsin := Real.sin_arccos (x / H)
  have hsin' : H * Real.sin (Real.arccos (x / H)) = |y| := by
    rw [hsin]
    have : 1 - (x / H) ^ 2 = y ^ 2 / H ^ 2 := by
      rw [div_pow, eq_div_iff (by positivity), sub_mul, div_mul_cancel₀ _ (by positivity)]
      linarith
    rw [this, Real.sqrt_div (sq_nonneg y), Real.sqrt_sq hH.le, Real.sqrt_sq_eq_abs]
    field_simp
  have hval : rad2deg (Trig.acos ((val x : Fl r) / val (hyp r x y))) = val D := by
    rw [val_div_of_ne _ hh0, ← ec, acos_val_of hc1, rad2deg_val hp, eD]
  rw [hval, val_mul, (rnd_sign_mul hDrep y).1]
  have hx' : x = H * Real.cos (Real.arccos (x / H)) := by rw [hcos]; field_simp
  have ha0 := Real.arccos_nonneg (x / H)
  have ha1 := Real.arccos_le_pi (x / H)
  rcases lt_trichotomy y 0 with hy | hy | hy
  · refine ⟨-D, -Real.arccos (x / H), hDrep.neg, ?_, ?_, ?_, ?_, ?_⟩
    · simp [hy, not_lt_of_gt hy]
    · rw [abs_neg, abs_of_nonneg ha0]; exact ha1
    · rw [Real.cos_neg]; exact hx'
    · rw [Real.sin_neg, mul_neg, hsin', abs_of_neg hy]; ring
    · rw [show -D - -Real.arccos (x / H) * (180 / Real.pi) = -(D - Real.arccos (x / H) * (180 / Real.pi)) by ring, abs_neg]
      exact hDerr
  · have hx0 : 0 < x := by
      rcases hxy with h' | h'
      · exact absurd hy h'
      · exact h'
    refine ⟨0, 0, rep_zero, ?_, ?_, ?_, ?_, ?_⟩
    · simp [hy]
    · simp [Real.pi_pos.le]
    · rw [Real.cos_zero, mul_one]
      rw [hy] at hHs
      nlinarith
    · rw [Real.sin_zero, mul_zero]; exact hy
    · simp
  · refine ⟨D, Real.arccos (x / H), hDrep, ?_, ?_, ?_, ?_, ?_⟩
    · simp [hy]
    · rw [abs_of_nonneg ha0]; exact ha1
    · exact hx'
    · rw [hsin', abs_of_pos hy]
    · exact hDerr

/-- the longitude of a point near `C (cos lam, sin lam)` -/
theorem lon_near (hp : 8 ≤ r.p) (h : LibRel r ε) (hε : ε ≤ 1 / 4096) {x y C lam η : ℝ} (hx : Rep r.p x)
    (hxy : y ≠ 0 ∨ 0 < x) (hC : 0 < C) (hη0 : 0 ≤ η) (hη : η ≤ 1 / 16) (hlam : |lam| ≤ 3 * Real.pi / 2)
    (hd : (x - C * Real.cos lam) ^ 2 + (y - C * Real.sin lam) ^ 2 ≤ (η * C) ^ 2) :
    ∃ L, Rep r.p L ∧
      rad2deg (Trig.acos ((val x : Fl r) / val (hyp r x y))) * val (if 0 < y then 1 else if y < 0 then -1 else 0) = val L ∧
      |L| ≤ 185 ∧ ∃ k : ℤ, |k| ≤ 1 ∧ |L - lam * (180 / Real.pi) - 360 * k| ≤ 270 * √ε + 98 * η := by
  obtain ⟨L, mu, h1, h2, h3, h4, h5, h6⟩ := lon_err hp h hε hx hxy
  obtain ⟨k, hk, hk'⟩ := angle_near hC hη0 hη hlam h3 (Real.sqrt_nonneg _) h4 h5 hd
  refine ⟨L, h1, h2, ?_, k, hk, ?_⟩
  · have hs : √ε ≤ 1 / 64 := by
      rw [Real.sqrt_le_left (by norm_num)]; linarith
    have hm : |mu * (180 / Real.pi)| ≤ 180 := by
      rw [abs_mul, abs_of_pos c0]
      exact (mul_le_mul_of_nonneg_right h3 c0.le).trans_eq c180
    calc |L| = |(L - mu * (180 / Real.pi)) + mu * (180 / Real.pi)| := by ring_nf
      _ ≤ _ := abs_add_le _ _
      _ ≤ 185 := by linarith
  have e : L - lam * (180 / Real.pi) - 360 * k
      = (L - mu * (180 / Real.pi)) + (mu - lam - 2 * Real.pi * k) * (180 / Real.pi) := by
    have : 2 * Real.pi * k * (180 / Real.pi) = 360 * k := by
      rw [show 2 * Real.pi * k * (180 / Real.pi) = 2 * k * (Real.pi * (180 / Real.pi)) by ring, c180]; ring
    rw [sub_mul, this]; ring
  rw [e]
  refine (abs_add_le _ _).trans (add_le_add h6 ?_)
  rw [abs_mul, abs_of_pos c0]
  have := mul_le_mul hk' c57 c0.le (by positivity)
  linarith

/-- the latitude from z -/
theorem latZ_err (hp : 8 ≤ r.p) (h : LibRel r ε) (hε : ε ≤ 1 / 4096) {R z phi η : ℝ} (hR : 0 < R) (hη : η ≤ 1 / 100)
    (hphi : |phi| ≤ Real.pi / 2) (hz : |z / R - Real.sin phi| ≤ η) (hv : |r.rnd (z / R)| ≤ 0.851) :
    ∃ B, Rep r.p B ∧ 90 - rad2deg (Trig.acos ((val z : Fl r) / val R)) = val B ∧
      |B - phi * (180 / Real.pi)| ≤ 115 * η + 950 * ε := by
  have h0 := h.pos
  have hη0 : 0 ≤ η := (abs_nonneg _).trans hz
  have hvz : Rel ε (r.rnd (z / R)) (z / R) := rel_rnd h.u _
  obtain ⟨v, ev⟩ : ∃ v, v = r.rnd (z / R) := ⟨_, rfl⟩
  rw [← ev] at hv hvz
  have hzR : |z / R| ≤ 0.852 := by
    have := hvz.le_abs
    nlinarith [abs_nonneg (z / R)]
  have hvs : |v - Real.sin phi| ≤ η + ε := by
    have h1 : |v - z / R| ≤ ε := le_trans hvz (by nlinarith)
    calc |v - Real.sin phi| = |(v - z / R) + (z / R - Real.sin phi)| := by ring_nf
      _ ≤ _ := abs_add_le _ _
      _ ≤ _ := by linarith
  have hv1 : |v| ≤ 1 := by linarith
  have hsp : |Real.sin phi| ≤ 0.863 := by
    have h1 : |Real.sin phi| ≤ |v| + |v - Real.sin phi| := by
      calc |Real.sin phi| = |v - (v - Real.sin phi)| := by ring_nf
        _ ≤ _ := abs_sub _ _
    linarith
  have hcp : 1 / 2 ≤ Real.cos phi := by
    have h1 := Real.cos_nonneg_of_mem_Icc (abs_le.1 hphi)
    have h2 := Real.sin_sq_add_cos_sq phi
    have h3 : Real.sin phi ^ 2 ≤ 0.863 ^ 2 := by rw [← sq_abs]; exact pow_le_pow_left₀ (abs_nonneg _) hsp 2
    by_contra hcon
    rw [not_le] at hcon
    nlinarith
  have hcv : 1 / 2 ≤ Real.cos (Real.arcsin v) := by
    rw [Real.cos_arcsin]
    apply Real.le_sqrt_of_sq_le
    have h3 : v ^ 2 ≤ 0.851 ^ 2 := by rw [← sq_abs]; exact pow_le_pow_left₀ (abs_nonneg _) hv 2
    nlinarith
  have hsv := Real.sin_arcsin (abs_le.1 hv1).1 (abs_le.1 hv1).2
  have hexp := sin_expand (s := Real.arcsin v) (t := phi) (c := 1 / 2) (by norm_num)
    (abs_le.2 ⟨Real.neg_pi_div_two_le_arcsin v, Real.arcsin_le_pi_div_two v⟩) hphi hcv hcp
  rw [hsv] at hexp
  have hD := deg_err h hε (h.acos v hv1) (m := Real.pi)
    (by rw [abs_of_nonneg (Real.arccos_nonneg v)]; exact Real.arccos_le_pi v)
  rw [c180] at hD
  obtain ⟨D, eD⟩ : ∃ D, D = r.rnd (r.acos v * degFactor r) := ⟨_, rfl⟩
  rw [← eD] at hD
  have h90 : r.rnd (((90 : Nat) : ℤ) : ℝ) = 90 := by
    have := r.rnd_rep (rep_90 hp)
    push_cast; exact this
  have harc : 90 - Real.arccos v * (180 / Real.pi) = Real.arcsin v * (180 / Real.pi) := by
    rw [Real.arccos_eq_pi_div_two_sub_arcsin, sub_mul, show Real.pi / 2 * (180 / Real.pi) = 90 by
      rw [div_mul_eq_mul_div, c180]; norm_num]
    ring
  refine ⟨r.rnd (90 - D), r.rep _, ?_, ?_⟩
  · rw [val_div_of_ne _ hR.ne', ← ev, acos_val_of hv1, rad2deg_val hp, num90, val_sub, ← eD, h90]
  · have hDb : |90 - D| ≤ 91 := by
      have ha : |Real.arcsin v| ≤ Real.pi / 2 := abs_le.2 ⟨Real.neg_pi_div_two_le_arcsin v, Real.arcsin_le_pi_div_two v⟩
      have h1 : |Real.arcsin v * (180 / Real.pi)| ≤ 90 := by
        rw [abs_mul, abs_of_pos c0]
        calc _ ≤ Real.pi / 2 * (180 / Real.pi) := mul_le_mul_of_nonneg_right ha c0.le
          _ = 90 := by rw [div_mul_eq_mul_div, c180]; norm_num
      calc |90 - D| = |Real.arcsin v * (180 / Real.pi) - (D - Real.arccos v * (180 / Real.pi))| := by
            rw [← harc]; ring_nf
        _ ≤ _ := abs_sub _ _
        _ ≤ 91 := by linarith
    have hr := rel_rnd h.u (90 - D)
    unfold Rel at hr
    have e : r.rnd (90 - D) - phi * (180 / Real.pi)
        = (r.rnd (90 - D) - (90 - D)) + (-(D - Real.arccos v * (180 / Real.pi))
          + (Real.arcsin v - phi) * (180 / Real.pi)) := by
      rw [sub_mul, ← harc]; ring
    rw [e]
    have h1 : |(Real.arcsin v - phi) * (180 / Real.pi)| ≤ 2 * (η + ε) * 57.33 := by
      rw [abs_mul, abs_of_pos c0]
      exact mul_le_mul (by linarith) c57 c0.le (by positivity)
    have h2 := abs_add_le (r.rnd (90 - D) - (90 - D)) (-(D - Real.arccos v * (180 / Real.pi))
          + (Real.arcsin v - phi) * (180 / Real.pi))
    have h3 := abs_add_le (-(D - Real.arccos v * (180 / Real.pi))) ((Real.arcsin v - phi) * (180 / Real.pi))
    rw [abs_neg] at h3
    nlinarith

/-- the latitude from x and y -/
theorem latXY_err (hp : 8 ≤ r.p) (h : LibRel r ε) (hε : ε ≤ 1 / 4096) {R x y z phi η : ℝ} (hR : 0 < R) (hη : η ≤ 1 / 100)
    (hphi : |phi| ≤ Real.pi / 2) (hz : |z / R - Real.sin phi| ≤ η) (hxy : |√(x ^ 2 + y ^ 2) / R - Real.cos phi| ≤ η)
    (hzl : 0.749 * R ≤ |z|) :
    ∃ B, Rep r.p B ∧ val (if 0 < z then 1 else if z < 0 then -1 else 0)
        * (90 - rad2deg (Trig.asin ((val (hyp r x y) : Fl r) / val R))) = val B ∧
      |B - phi * (180 / Real.pi)| ≤ 115 * η + 950 * ε := by
  have h0 := h.pos
  have hpi := Real.pi_pos
  have hη0 : 0 ≤ η := (abs_nonneg _).trans hz
  have hzR : 0.749 ≤ |z / R| := by rw [abs_div, abs_of_pos hR, le_div_iff₀ hR]; exact hzl
  have hsp : 0.739 ≤ |Real.sin phi| := by
    have h1 : |z / R| ≤ |z / R - Real.sin phi| + |Real.sin phi| := by
      calc |z / R| = |(z / R - Real.sin phi) + Real.sin phi| := by ring_nf
        _ ≤ _ := abs_add_le _ _
    linarith
  have hcn := Real.cos_nonneg_of_mem_Icc (abs_le.1 hphi)
  have hcp : Real.cos phi ≤ 0.675 := by
    have h2 := Real.sin_sq_add_cos_sq phi
    have h3 : 0.739 ^ 2 ≤ Real.sin phi ^ 2 := by rw [← sq_abs (Real.sin phi)]; exact pow_le_pow_left₀ (by norm_num) hsp 2
    by_contra hcon
    rw [not_le] at hcon
    nlinarith
  obtain ⟨H, eH⟩ : ∃ H, H = √(x ^ 2 + y ^ 2) := ⟨_, rfl⟩
  have hH0 : 0 ≤ H := eH ▸ Real.sqrt_nonneg _
  have hrel := hyp_rel h hε x y
  rw [← eH] at hxy hrel
  have hHR0 : 0 ≤ H / R := div_nonneg hH0 hR.le
  have hHR : H / R ≤ 0.685 := by have := (abs_le.1 hxy).2; linarith
  have hw : Rel (4.03 * ε) (r.rnd (hyp r x y / R)) (H / R) := by
    have h1 := hrel.div (Rel.refl (le_refl (0 : ℝ)) R) (by positivity) (by norm_num)
    refine (h1.rnd h.u).mono ?_
    rw [sub_zero, add_zero, div_one]
    nlinarith
  obtain ⟨w, ew⟩ : ∃ w, w = r.rnd (hyp r x y / R) := ⟨_, rfl⟩
  rw [← ew] at hw
  have hw0 : 0 ≤ w := ew ▸ r.rnd_nonneg (div_nonneg (hyp_nonneg x y) hR.le)
  have hwd : |w - H / R| ≤ 2.8 * ε := by
    refine le_trans hw ?_
    rw [abs_of_nonneg hHR0]
    nlinarith
  have hwc : |w - Real.cos phi| ≤ η + 2.8 * ε := by
    calc |w - Real.cos phi| = |(w - H / R) + (H / R - Real.cos phi)| := by ring_nf
      _ ≤ _ := abs_add_le _ _
      _ ≤ _ := by linarith
  have hw69 : w ≤ 0.69 := by have := (abs_le.1 hwd).2; linarith
  have hw1 : |w| ≤ 1 := by rw [abs_of_nonneg hw0]; linarith
  have hcv : 0.7 ≤ Real.cos (Real.arcsin w) := by
    rw [Real.cos_arcsin]
    apply Real.le_sqrt_of_sq_le
    nlinarith
  have hsv := Real.sin_arcsin (abs_le.1 hw1).1 (abs_le.1 hw1).2
  obtain ⟨a, ea⟩ : ∃ a, a = |phi| := ⟨_, rfl⟩
  have ha0 : 0 ≤ a := ea ▸ abs_nonneg phi
  have haπ : a ≤ Real.pi / 2 := ea ▸ hphi
  have hps : |Real.pi / 2 - a| ≤ Real.pi / 2 := by
    rw [abs_of_nonneg (by linarith)]; linarith
  have hsc : Real.sin (Real.pi / 2 - a) = Real.cos phi := by rw [Real.sin_pi_div_two_sub, ea, Real.cos_abs]
  have hcs : Real.cos (Real.pi / 2 - a) = |Real.sin phi| := by
    rw [Real.cos_pi_div_two_sub, ea]
    rcases abs_cases phi with ⟨e, h'⟩ | ⟨e, h'⟩ <;> rw [e] at hphi ⊢
    · rw [abs_of_nonneg (Real.sin_nonneg_of_nonneg_of_le_pi h' (by linarith))]
    · have := Real.sin_nonneg_of_nonneg_of_le_pi (by linarith : 0 ≤ -phi) (by linarith)
      rw [← abs_neg, ← Real.sin_neg, abs_of_nonneg this]
  have hexp := sin_expand (s := Real.arcsin w) (t := Real.pi / 2 - a) (c := 0.7) (by norm_num)
    (abs_le.2 ⟨Real.neg_pi_div_two_le_arcsin w, Real.arcsin_le_pi_div_two w⟩) hps hcv (by rw [hcs]; linarith)
  rw [hsv, hsc] at hexp
  have hD := deg_err h hε (h.asin w hw1) (m := Real.pi / 2)
    (abs_le.2 ⟨Real.neg_pi_div_two_le_arcsin w, Real.arcsin_le_pi_div_two w⟩)
  have c90 : Real.pi / 2 * (180 / Real.pi) = 90 := by rw [div_mul_eq_mul_div, c180]; norm_num
  rw [c90] at hD
  obtain ⟨D, eD⟩ : ∃ D, D = r.rnd (r.asin w * degFactor r) := ⟨_, rfl⟩
  rw [← eD] at hD
  have h90 : r.rnd (((90 : Nat) : ℤ) : ℝ) = 90 := by
    have := r.rnd_rep (rep_90 hp)
    push_cast; exact this
  have hDb : |90 - D| ≤ 91 := by
    have ha0 := Real.arcsin_nonneg.2 hw0
    have ha1 := Real.arcsin_le_pi_div_two w
    have h1 : 0 ≤ Real.arcsin w * (180 / Real.pi) := mul_nonneg ha0 c0.le
    have h2 : Real.arcsin w * (180 / Real.pi) ≤ 90 := by
      rw [← c90]; exact mul_le_mul_of_nonneg_right ha1 c0.le
    have h3 := abs_le.1 hD
    exact abs_le.2 ⟨by linarith [h3.1, h3.2], by linarith [h3.1, h3.2]⟩
  have hr := rel_rnd h.u (90 - D)
  unfold Rel at hr
  -- the magnitude
  have hB : |r.rnd (90 - D) - a * (180 / Real.pi)| ≤ 115 * η + 950 * ε := by
    have e : r.rnd (90 - D) - a * (180 / Real.pi)
        = (r.rnd (90 - D) - (90 - D)) + (-(D - Real.arcsin w * (180 / Real.pi))
          + -((Real.arcsin w - (Real.pi / 2 - a)) * (180 / Real.pi))) := by
      rw [sub_mul (Real.arcsin w), sub_mul (Real.pi / 2), c90]; ring
    rw [e]
    have h1 : |(Real.arcsin w - (Real.pi / 2 - a)) * (180 / Real.pi)| ≤ 1.43 * (η + 2.8 * ε) * 57.33 := by
      rw [abs_mul, abs_of_pos c0]
      exact mul_le_mul (by linarith) c57 c0.le (by positivity)
    have h2 := abs_add_le (r.rnd (90 - D) - (90 - D)) (-(D - Real.arcsin w * (180 / Real.pi))
          + -((Real.arcsin w - (Real.pi / 2 - a)) * (180 / Real.pi)))
    have h3 := abs_add_le (-(D - Real.arcsin w * (180 / Real.pi))) (-((Real.arcsin w - (Real.pi / 2 - a)) * (180 / Real.pi)))
    rw [abs_neg, abs_neg] at h3
    nlinarith
  obtain ⟨M, eM⟩ : ∃ M, M = r.rnd (90 - D) := ⟨_, rfl⟩
  rw [← eM] at hB
  have hMrep : Rep r.p M := eM ▸ r.rep _
  have hval : (90 - rad2deg (Trig.asin ((val (hyp r x y) : Fl r) / val R))) = val M := by
    rw [val_div_of_ne _ hR.ne', ← ew, asin_val_of hw1, rad2deg_val hp, num90, val_sub, ← eD, h90, eM]
  rw [hval, val_mul, (rnd_sign_mul hMrep z).2]
  rcases le_total 0 phi with hph | hph
  · have hs : 0 ≤ Real.sin phi := Real.sin_nonneg_of_nonneg_of_le_pi hph (by linarith [(abs_le.1 hphi).2])
    rw [abs_of_nonneg hs] at hsp
    have hzp : 0 < z := by
      have h1 := (abs_le.1 hz).1
      have : 0 < z / R := by linarith
      exact (div_pos_iff_of_pos_right hR).1 this
    refine ⟨M, hMrep, by simp [hzp], ?_⟩
    rwa [ea, abs_of_nonneg hph] at hB
  · have hs : Real.sin phi ≤ 0 := Real.sin_nonpos_of_nonpos_of_neg_pi_le hph (by linarith [(abs_le.1 hphi).1])
    rw [abs_of_nonpos hs] at hsp
    have hzn : z < 0 := by
      have h1 := (abs_le.1 hz).2
      have : z / R < 0 := by linarith
      by_contra hcon
      linarith [div_nonneg (not_lt.1 hcon) hR.le]
    refine ⟨-M, hMrep.neg, by simp [hzn, not_lt_of_gt hzn], ?_⟩
    rw [ea, abs_of_nonpos hph] at hB
    rw [show -M - phi * (180 / Real.pi) = -(M - -phi * (180 / Real.pi)) by ring, abs_neg]
    exact hB

/-- the threshold of the code is in this range -/
structure ThrOk (t : ℝ) : Prop where
  lo : 3 / 4 ≤ t
  hi : t ≤ 0.85

theorem thr_mul (h : LibRel r ε) (hε : ε ≤ 1 / 4096) {R t : ℝ} (hR : 0 < R) (ht : ThrOk t) :
    0.749 * R ≤ r.rnd (t * R) ∧ r.rnd (t * R) ≤ 0.8503 * R := by
  have h0 := h.pos
  have h1 := ht.lo
  have h2 := ht.hi
  have hp : 0 < t * R := by nlinarith
  have hr := rel_rnd h.u (t * R)
  unfold Rel at hr
  rw [abs_of_pos hp] at hr
  have h3 := abs_le.1 hr
  have h5 : 3 / 4 * R ≤ t * R := by nlinarith
  have h6 : t * R ≤ 0.85 * R := by nlinarith
  have h7 : ε * (t * R) ≤ 1 / 4096 * (t * R) := by nlinarith
  constructor <;> linarith [h3.1, h3.2]

theorem rnd_div_le (h : LibRel r ε) (hε : ε ≤ 1 / 4096) {R z : ℝ} (hR : 0 < R) (hz : |z| ≤ 0.8503 * R) :
    |r.rnd (z / R)| ≤ 0.851 := by
  have h1 := (rel_rnd h.u (z / R)).abs_le
  have h2 : |z / R| ≤ 0.8503 := by rw [abs_div, abs_of_pos hR, div_le_iff₀ hR]; exact hz
  have h3 := abs_nonneg (z / R)
  nlinarith [h.pos]

/-- The latitude of a point near the one of latitude `phi` on the sphere, all three copies. -/
theorem lat_near (hp : 8 ≤ r.p) (h : LibRel r ε) (hε : ε ≤ 1 / 4096) {R t x y z phi η : ℝ} (hR : 0 < R) (ht : ThrOk t)
    (hη : η ≤ 1 / 100) (hphi : |phi| ≤ Real.pi / 2) (hz : |z / R - Real.sin phi| ≤ η)
    (hxy : |√(x ^ 2 + y ^ 2) / R - Real.cos phi| ≤ η) :
    (∃ B, Rep r.p B ∧ (xyz2lonlat (val R : Fl r) (val t) true (val x, val y, val z)).2 = val B ∧
      |B - phi * (180 / Real.pi)| ≤ 115 * η + 950 * ε) ∧
    (Rep r.p t → ∃ B, Rep r.p B ∧ (cyXyz2lonlat (val R : Fl r) (val t) true (val x, val y, val z)).2 = val B ∧
      |B - phi * (180 / Real.pi)| ≤ 115 * η + 950 * ε) ∧
    (∃ B, Rep r.p B ∧ (viiXyz2lonlat (val R : Fl r) (val t) (val x, val y, val z)).2 = val B ∧
      |B - phi * (180 / Real.pi)| ≤ 115 * η + 950 * ε) := by
  have h0 := h.pos
  obtain ⟨tl, th⟩ := thr_mul h hε hR ht
  refine ⟨?_, ?_, ?_⟩
  · simp only [xyz2lonlat, hyp_val, asign_val, if_true]
    rw [val_div_of_ne z hR.ne', aabs_val, lt_val]
    by_cases hc : |r.rnd (z / R)| < t
    · simp only [hc, decide_true, if_true]
      rw [← val_div_of_ne z hR.ne']
      exact latZ_err hp h hε hR hη hphi hz (by have := ht.hi; linarith)
    · simp only [hc, decide_false, Bool.false_eq_true, if_false]
      refine latXY_err hp h hε hR hη hphi hz hxy ?_
      have h1 := (rel_rnd h.u (z / R)).abs_le
      have h2 : 0.749 ≤ |z / R| := by
        have := ht.lo
        rw [not_lt] at hc
        have h3 := abs_nonneg (z / R)
        nlinarith
      rwa [abs_div, abs_of_pos hR, le_div_iff₀ hR] at h2
  · intro htr
    have em : r.rnd (-1 * t) = -t := by rw [neg_one_mul]; exact r.rnd_rep htr.neg
    -- the lower threshold is rounded separately
    have hl2 : -(0.8503 * R) ≤ r.rnd (-t * R) ∧ r.rnd (-t * R) ≤ -(0.749 * R) := by
      have hp' : 0 < t * R := by have := ht.lo; nlinarith
      have hr := rel_rnd h.u (-t * R)
      unfold Rel at hr
      rw [neg_mul, abs_neg, abs_of_pos hp'] at hr
      have h3 := abs_le.1 hr
      have h5 : 3 / 4 * R ≤ t * R := by have := ht.lo; nlinarith
      have h6 : t * R ≤ 0.85 * R := by have := ht.hi; nlinarith
      have h7 : ε * (t * R) ≤ 1 / 4096 * (t * R) := by nlinarith
      rw [neg_mul]
      constructor <;> linarith [h3.1, h3.2]
    simp only [cyXyz2lonlat, toFloating_eq, toDouble_eq, hyp_val, csign_val, Bool.true_and]
    simp only [one_eq, val_neg, val_mul, lt_val, em]
    by_cases hc : z < r.rnd (t * R) ∧ r.rnd (-t * R) < z
    · simp only [hc.1, hc.2, decide_true, Bool.and_self, if_true]
      exact latZ_err hp h hε hR hη hphi hz (rnd_div_le h hε hR (abs_le.2 ⟨by linarith [hc.2], by linarith [hc.1]⟩))
    · have hb : (decide (z < r.rnd (t * R)) && decide (r.rnd (-t * R) < z)) = false := by simpa using hc
      simp only [hb, Bool.false_eq_true, if_false]
      refine latXY_err hp h hε hR hη hphi hz hxy ?_
      by_contra hcon
      have := abs_lt.1 (not_le.1 hcon)
      exact hc ⟨by linarith [this.2], by linarith [this.1]⟩
  · simp only [viiXyz2lonlat, hyp_val, asign_val]
    simp only [val_mul, val_neg, lt_val]
    by_cases hc : z < r.rnd (t * R) ∧ -r.rnd (t * R) < z
    · simp only [hc.1, hc.2, decide_true, Bool.and_self, if_true]
      exact latZ_err hp h hε hR hη hphi hz (rnd_div_le h hε hR (abs_le.2 ⟨by linarith [hc.2], by linarith [hc.1]⟩))
    · have hb : (decide (z < r.rnd (t * R)) && decide (-r.rnd (t * R) < z)) = false := by simpa using hc
      simp only [hb, Bool.false_eq_true, if_false]
      refine latXY_err hp h hε hR hη hphi hz hxy ?_
      by_contra hcon
      have := abs_lt.1 (not_le.1 hcon)
      exact hc ⟨by linarith [this.2], by linarith [this.1]⟩

end Verif.Err
