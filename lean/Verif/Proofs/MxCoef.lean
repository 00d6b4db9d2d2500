import Verif.Proofs.FlCoef
import Verif.Proofs.MxModis

/-!
# The expansion and alignment coefficients in mixed precision
-/

namespace Verif.Mx
open Verif Verif.Geo Verif.Modis Verif.FlGeo
variable {q : Mixed}

theorem abs_rnd_12 {r : Rounding} (hp : 12 ≤ r.p) (x : ℝ) : |r.rnd x| ≤ 4097 / 4096 * |x| := by
  have h1 := Fl.abs_rnd_le (r := r) x
  have h2 := Fl.u_le_12 hp
  have := abs_nonneg x
  nlinarith

theorem hd12 (hp : 12 ≤ q.s.p) : 12 ≤ q.d.p := hp.trans q.le

theorem rnd_180 (hp : 12 ≤ q.s.p) : q.d.rnd ((180 : ℤ) : ℝ) = 180 := by
  push_cast; exact q.d.rnd_rep (rep_180 (by have := q.le; omega))

theorem rnd_two {r : Rounding} (hp : 12 ≤ r.p) : r.rnd ((2 : ℤ) : ℝ) = 2 := by
  push_cast; exact r.rnd_rep (by exact_mod_cast rep_small (r := r) (by omega) (n := 2) (by norm_num))

theorem rnd_four {r : Rounding} (hp : 12 ≤ r.p) : r.rnd ((4 : ℤ) : ℝ) = 4 := by
  push_cast; exact r.rnd_rep (by exact_mod_cast rep_small (r := r) (by omega) (n := 4) (by norm_num))

theorem satR_eq : (satR : Mx q) = dbl (Fl.fR q.d) := rfl
theorem satH_eq : (satH : Mx q) = dbl (Fl.fH q.d) := rfl
theorem satRH_eq : (satR + satH : Mx q) = dbl (Fl.fRH q.d) := rfl

/-! ### the angles -/

/-- degrees to radians -/
theorem deg2rad_num (hp : 12 ≤ q.s.p) (a : ℝ) (ha : |a| ≤ 70) :
    ∃ x, cyDeg2rad (sgl a : Mx q) = sgl x ∧ Rep q.s.p x ∧ |x| ≤ 1.24 ∧ (x = 0 ↔ a = 0) := by
  have hpi : 0 < q.d.rnd Real.pi := q.d.rnd_pos Real.pi_pos
  have hF : radFactor q = q.d.rnd (q.d.rnd Real.pi / 180) := by unfold radFactor; rw [rnd_180 hp]
  refine ⟨_, cyDeg2rad_mx a, q.s.rep _, ?_, ?_⟩
  · have h0 := abs_rnd_12 hp (q.d.rnd (a * radFactor q))
    have h1 := abs_rnd_12 (hd12 hp) (a * radFactor q)
    have h2 := abs_rnd_12 (hd12 hp) (q.d.rnd Real.pi / 180)
    have h3 := abs_rnd_12 (hd12 hp) Real.pi
    rw [abs_of_pos Real.pi_pos] at h3
    rw [abs_div, abs_of_pos (by norm_num : (0:ℝ) < 180), ← hF] at h2
    have hpi4 := Real.pi_lt_d4
    have hq2 : |radFactor q| ≤ 0.01747 := by nlinarith [abs_nonneg (q.d.rnd Real.pi)]
    rw [abs_mul] at h1
    have hq3 : |a| * |radFactor q| ≤ 70 * 0.01747 := mul_le_mul ha hq2 (abs_nonneg _) (by norm_num)
    nlinarith
  · rw [q.s.rnd_eq_zero, q.d.rnd_eq_zero, mul_eq_zero, hF, q.d.rnd_eq_zero]
    constructor
    · rintro (h | h)
      · exact h
      · exact absurd h (by positivity)
    · exact Or.inl

/-- a bound of the angle at the satellite -/
noncomputable def top (q : Mixed) : ℝ := Real.arcsin (Fl.fQ q.d * 0.973)

theorem phi_num (hp : 12 ≤ q.s.p) (hl : Fl.LibAcc q.d) (x : ℝ) (hx : |x| ≤ 1.24) :
    ∃ f, computePhi (sgl x : Mx q) = sgl f ∧ Rep q.s.p f ∧ |f| ≤ 0.92 * |x| ∧ |f| ≤ 4097 / 4096 * (1.001 * top q) := by
  obtain ⟨f', e, -, h1, h2⟩ := Fl.phi_num (r := q.d) (hd12 hp) hl x hx
  obtain ⟨c1, _, _, _, c5, _⟩ := Fl.consts (hd12 hp)
  have hpos : 0 < Fl.fRH q.d := by linarith
  -- the same double, then rounded
  have ef : computePhi (sgl x : Mx q) = sgl (q.s.rnd f') := by
    unfold computePhi at e ⊢
    rw [Fl.satRH_eq, Fl.satR_eq, Fl.sin_val, Fl.val_mul, Fl.val_div_of_ne _ hpos.ne', Fl.toFloating_eq] at e
    rw [satRH_eq, satR_eq, sin_sgl, dd_mul, dd_div_of _ hpos.ne']
    by_cases h : |q.d.rnd (q.d.rnd (Fl.fR q.d * q.d.sin x) / Fl.fRH q.d)| ≤ 1
    · rw [Fl.asin_val_of h] at e
      injection e with e
      rw [asin_dbl h, toFloating_dbl, e]
    · rw [show (Trig.asin (Fl.val (q.d.rnd (q.d.rnd (Fl.fR q.d * q.d.sin x) / Fl.fRH q.d))) : Fl q.d) = Fl.bad from
        if_neg (fun hh => h (abs_le.2 hh))] at e
      cases e
  have h3 := abs_rnd_12 hp f'
  refine ⟨_, ef, q.s.rep _, ?_, ?_⟩
  · -- 0.92 absorbs the rounding: use the sharper bound on the double
    have h4 : |f'| ≤ 0.9195 * |x| := by
      obtain ⟨q0, q1⟩ := Fl.fQ_bounds (hd12 hp)
      have hu0 := q.d.u_pos
      have hR : 0 < Fl.fR q.d := by linarith
      unfold computePhi at e
      rw [Fl.satRH_eq, Fl.satR_eq, Fl.sin_val, Fl.val_mul, Fl.val_div_of_ne _ hpos.ne', Fl.toFloating_eq] at e
      set g := q.d.rnd (q.d.rnd (Fl.fR q.d * q.d.sin x) / Fl.fRH q.d) with hg
      have hqs : |g| ≤ Fl.fQ q.d * |Real.sin x| := by
        have e1 := Fl.abs_rnd_le (r := q.d) (q.d.rnd (Fl.fR q.d * q.d.sin x) / Fl.fRH q.d)
        have e2 := Fl.abs_rnd_le (r := q.d) (Fl.fR q.d * q.d.sin x)
        rw [abs_mul, abs_of_pos hR] at e2
        rw [abs_div, abs_of_pos hpos] at e1
        have e3 := hl.abs_sin_le x
        calc |g| ≤ (1 + q.d.u) * (|q.d.rnd (Fl.fR q.d * q.d.sin x)| / Fl.fRH q.d) := e1
          _ ≤ (1 + q.d.u) * ((1 + q.d.u) * (Fl.fR q.d * (1.001 * |Real.sin x|)) / Fl.fRH q.d) := by
            gcongr; exact e2.trans (by gcongr)
          _ = _ := by unfold Fl.fQ; ring
      have hq1 : |g| ≤ 1 := hqs.trans (by
        have := Fl.sin_bound hx
        nlinarith [abs_nonneg (Real.sin x)])
      rw [Fl.asin_val_of hq1] at e
      injection e with e
      rw [← e]
      refine (hl.abs_asin_le hq1).trans ?_
      rw [Fl.abs_arcsin]
      have hxpi : |x| ≤ Real.pi := hx.trans (by have := Real.pi_gt_three; linarith)
      have : Real.arcsin |g| ≤ Fl.fQ q.d * |x| := by
        rw [Real.arcsin_le_iff_le_sin ⟨by linarith [abs_nonneg g], hq1⟩]
        · rw [Fl.abs_sin_of hxpi] at hqs
          exact hqs.trans (Fl.mul_sin_le q0.le (by linarith) (abs_nonneg _) hxpi)
        · refine ⟨?_, ?_⟩
          · have : 0 ≤ Fl.fQ q.d * |x| := by positivity
            have := Real.pi_pos; linarith
          · have := Real.pi_gt_three
            nlinarith [abs_nonneg x]
      nlinarith [abs_nonneg x]
    have := abs_nonneg x
    linarith
  · unfold top
    linarith

/-- the mean of two such angles, and the zenith angle it corresponds to -/
theorem zeta_num (hp : 12 ≤ q.s.p) (hl : Fl.LibAcc q.d) {f g : ℝ} (hf : |f| ≤ 4097 / 4096 * (1.001 * top q))
    (hg : |g| ≤ 4097 / 4096 * (1.001 * top q)) :
    ∃ m z, (sgl f + sgl g : Mx q) / 2 = sgl m ∧ computeZeta (sgl m : Mx q) = sgl z ∧ Rep q.s.p z ∧ 0.19 ≤ q.d.cos z := by
  obtain ⟨h1, h2, _, _, h5, h6⟩ := Fl.consts (hd12 hp)
  obtain ⟨q0, q1⟩ := Fl.fQ_bounds (hd12 hp)
  have hpos : 0 < Fl.fRH q.d := by linarith
  have hR : 0 < Fl.fR q.d := by linarith
  set y := top q with hy
  set c := Fl.fQ q.d * 0.973 with hc
  have hc0 : 0 < c := by positivity
  have hc1 : c ≤ 0.8903 := by rw [hc]; nlinarith
  have hy0 : 0 ≤ y := Real.arcsin_nonneg.2 hc0.le
  have hsy : Real.sin y = c := Real.sin_arcsin (by linarith) (by linarith)
  -- the angle is not near a right angle
  have hy1 : y ≤ Real.pi / 2 - 0.4 := by
    have e1 : Real.cos y = √(1 - c ^ 2) := Real.cos_arcsin c
    have e2 : 0.4 ≤ √(1 - c ^ 2) := by
      apply Real.le_sqrt_of_sq_le
      nlinarith
    have e3 : Real.cos y = Real.sin (Real.pi / 2 - y) := (Real.sin_pi_div_two_sub y).symm
    have e4 : Real.sin (Real.pi / 2 - y) ≤ Real.pi / 2 - y := Real.sin_le (by
      have : y ≤ Real.pi / 2 := Real.arcsin_le_pi_div_two c
      linarith)
    linarith
  set m := q.s.rnd (q.s.rnd (f + g) / 2) with hm
  have hmk : |m| ≤ 1.0018 * y := by
    have e1 := abs_rnd_12 hp (q.s.rnd (f + g) / 2)
    have e2 := abs_rnd_12 hp (f + g)
    rw [abs_div, abs_two] at e1
    have e3 : |f + g| ≤ 2 * (4097 / 4096 * (1.001 * y)) := (abs_add_le _ _).trans (by linarith)
    calc |m| ≤ 4097 / 4096 * (|q.s.rnd (f + g)| / 2) := e1
      _ ≤ 4097 / 4096 * (4097 / 4096 * (2 * (4097 / 4096 * (1.001 * y))) / 2) := by gcongr; exact e2.trans (by gcongr)
      _ ≤ _ := by nlinarith
  have hpi4 := Real.pi_lt_d4
  have hky : 1.0018 * y ≤ Real.pi / 2 := by nlinarith
  have hmpi : |m| ≤ Real.pi := hmk.trans (by linarith [Real.pi_pos])
  have hsm : |Real.sin m| ≤ 1.0018 * c := by
    rw [Fl.abs_sin_of hmpi]
    have e1 : Real.sin |m| ≤ Real.sin (1.0018 * y) :=
      Real.sin_le_sin_of_le_of_le_pi_div_two (by linarith [abs_nonneg m, Real.pi_pos]) hky hmk
    have e2 := Fl.mul_sin_le (c := 1 / 1.0018) (x := 1.0018 * y) (by norm_num) (by norm_num)
      (by positivity) (by linarith [Real.pi_pos])
    rw [show (1 : ℝ) / 1.0018 * (1.0018 * y) = y by ring, hsy] at e2
    have e3 : Real.sin (1.0018 * y) ≤ 1.0018 * c := by
      have : Real.sin (1.0018 * y) = 1.0018 * (1 / 1.0018 * Real.sin (1.0018 * y)) := by ring
      rw [this]; gcongr
    exact e1.trans e3
  set g' := q.d.rnd (q.d.rnd (Fl.fRH q.d * q.d.sin m) / Fl.fR q.d) with hg'
  have hqb : |g'| ≤ 0.98 := by
    have e1 := abs_rnd_12 (hd12 hp) (q.d.rnd (Fl.fRH q.d * q.d.sin m) / Fl.fR q.d)
    have e2 := abs_rnd_12 (hd12 hp) (Fl.fRH q.d * q.d.sin m)
    rw [abs_mul, abs_of_pos hpos] at e2
    rw [abs_div, abs_of_pos hR] at e1
    have e3 := hl.abs_sin_le m
    have hu := Fl.u_le_12 (hd12 hp)
    have hu0 := q.d.u_pos
    calc |g'| ≤ 4097 / 4096 * (|q.d.rnd (Fl.fRH q.d * q.d.sin m)| / Fl.fR q.d) := e1
      _ ≤ 4097 / 4096 * (4097 / 4096 * (Fl.fRH q.d * (1.001 * (1.0018 * c))) / Fl.fR q.d) := by
        gcongr
        exact e2.trans (by gcongr; exact e3.trans (by gcongr))
      _ = (4097 / 4096) ^ 2 * (1 + q.d.u) ^ 2 * 1.001 ^ 2 * 1.0018 * 0.973 := by
        rw [hc]; unfold Fl.fQ; field_simp
      _ ≤ (4097 / 4096) ^ 2 * (1 + 1 / 4096) ^ 2 * 1.001 ^ 2 * 1.0018 * 0.973 := by gcongr
      _ ≤ _ := by norm_num
  have hq1 : |g'| ≤ 1 := hqb.trans (by norm_num)
  refine ⟨m, q.s.rnd (q.d.asin g'), ?_, ?_, q.s.rep _, ?_⟩
  · rw [two_eq, ss_add, si_div _ _ (by norm_num), rnd_two hp]
  · unfold computeZeta
    rw [satRH_eq, satR_eq, sin_sgl, dd_mul, dd_div_of _ hR.ne', asin_dbl hq1, toFloating_dbl]
  · set z := q.s.rnd (q.d.asin g') with hz
    have e1 := abs_le.1 (hl.cos z)
    have e2 := hl.asin g' hq1
    have e3 : |Real.arcsin g'| ≤ 1.6 := by
      rw [abs_le]
      have := Real.neg_pi_div_two_le_arcsin g'
      have := Real.arcsin_le_pi_div_two g'
      constructor <;> linarith
    have e4 : 0.198 ≤ Real.cos (Real.arcsin g') := by
      rw [Real.cos_arcsin]
      apply Real.le_sqrt_of_sq_le
      have : g' ^ 2 ≤ 0.98 ^ 2 := by rw [← sq_abs]; exact pow_le_pow_left₀ (abs_nonneg _) hqb 2
      norm_num at this ⊢
      linarith
    have e6 : |z - q.d.asin g'| ≤ 0.0004 := by
      have := q.s.abs_rnd_sub_le_u (q.d.asin g')
      have h7 := hl.abs_asin_le hq1
      have h8 := Fl.u_le_12 hp
      have h9 := q.s.u_pos
      calc _ ≤ _ := this
        _ ≤ 1 / 4096 * (1.001 * 1.6) := by gcongr; exact h7.trans (by gcongr)
        _ ≤ _ := by norm_num
    have e7 : |z - Real.arcsin g'| ≤ 0.0021 := by
      calc |z - Real.arcsin g'| = |(z - q.d.asin g') + (q.d.asin g' - Real.arcsin g')| := by ring_nf
        _ ≤ _ := abs_add_le _ _
        _ ≤ _ := by linarith
    have e5 := abs_le.1 (Real.abs_cos_sub_cos_le z (Real.arcsin g'))
    linarith [e5.1, e1.1]

/-- the number under the root is not negative -/
theorem root_num (hp : 12 ≤ q.s.p) (hl : Fl.LibAcc q.d) {w : Nat} (hw : w ≤ 50) (m : ℝ) {z : ℝ} (hz : 0.19 ≤ q.d.cos z) :
    ∃ s,
      (let sb : Mx q := Trig.toFloating (Arith.ofInt w / (2 * satH))
       let d : Mx q := Trig.toFloating (((satR + satH) / satR * Trig.cos (sgl m) - Trig.cos (sgl z)) * sb)
       Trig.sqrt (Trig.cos (sgl z) * Trig.cos (sgl z) - d * d)) = dbl s := by
  obtain ⟨h1, h2, h3, h4, h5, h6⟩ := Fl.consts (hd12 hp)
  have hpd := hd12 hp
  have hpos : 0 < Fl.fRH q.d := by linarith
  have hR : 0 < Fl.fR q.d := by linarith
  have hHH : 1400 ≤ q.d.rnd (2 * Fl.fH q.d) := by
    have := abs_le.1 (q.d.abs_rnd_sub_le_u (2 * Fl.fH q.d))
    rw [abs_of_nonneg (by linarith)] at this
    nlinarith [this.1, Fl.u_le_12 hpd]
  set sb := q.s.rnd (q.d.rnd (q.d.rnd ((w : ℤ) : ℝ) / q.d.rnd (2 * Fl.fH q.d))) with hsb
  set A := q.d.rnd (q.d.rnd (Fl.fRH q.d / Fl.fR q.d) * q.d.cos m) with hA
  set d := q.s.rnd (q.d.rnd (q.d.rnd (A - q.d.cos z) * sb)) with hd
  have hsbb : |sb| ≤ 0.04 := by
    have e0 := abs_rnd_12 hp (q.d.rnd (q.d.rnd ((w : ℤ) : ℝ) / q.d.rnd (2 * Fl.fH q.d)))
    have e1 := abs_rnd_12 hpd (q.d.rnd ((w : ℤ) : ℝ) / q.d.rnd (2 * Fl.fH q.d))
    have e2 := abs_rnd_12 hpd ((w : ℤ) : ℝ)
    have hw' : |((w : ℤ) : ℝ)| ≤ 50 := by
      rw [abs_of_nonneg (by positivity)]; exact_mod_cast hw
    rw [abs_div, abs_of_pos (by linarith : 0 < q.d.rnd (2 * Fl.fH q.d))] at e1
    calc |sb| ≤ _ := e0
      _ ≤ 4097 / 4096 * (4097 / 4096 * (|q.d.rnd ((w : ℤ) : ℝ)| / q.d.rnd (2 * Fl.fH q.d))) := by gcongr
      _ ≤ 4097 / 4096 * (4097 / 4096 * (4097 / 4096 * 50 / 1400)) := by
        gcongr
        exact e2.trans (by gcongr)
      _ ≤ _ := by norm_num
  have hg : |q.d.rnd (Fl.fRH q.d / Fl.fR q.d)| ≤ 1.13 := by
    have e1 := abs_rnd_12 hpd (Fl.fRH q.d / Fl.fR q.d)
    rw [abs_of_pos (div_pos hpos hR)] at e1
    have e2 : Fl.fRH q.d / Fl.fR q.d ≤ 1.12 := by rw [div_le_iff₀ hR]; exact h6
    calc _ ≤ _ := e1
      _ ≤ 4097 / 4096 * 1.12 := by gcongr
      _ ≤ _ := by norm_num
  have hgc : |A| ≤ 1.14 := by
    have e1 := abs_rnd_12 hpd (q.d.rnd (Fl.fRH q.d / Fl.fR q.d) * q.d.cos m)
    rw [abs_mul] at e1
    calc _ ≤ _ := e1
      _ ≤ 4097 / 4096 * (1.13 * 1.001) := by gcongr; exact hl.abs_cos_le m
      _ ≤ _ := by norm_num
  have hdiff : |q.d.rnd (A - q.d.cos z)| ≤ 2.2 := by
    have e1 := abs_rnd_12 hpd (A - q.d.cos z)
    calc _ ≤ _ := e1
      _ ≤ 4097 / 4096 * (1.14 + 1.001) := by
        gcongr
        exact (abs_sub _ _).trans (add_le_add hgc (hl.abs_cos_le z))
      _ ≤ _ := by norm_num
  have hdd : |d| ≤ 0.1 := by
    have e0 := abs_rnd_12 hp (q.d.rnd (q.d.rnd (A - q.d.cos z) * sb))
    have e1 := abs_rnd_12 hpd (q.d.rnd (A - q.d.cos z) * sb)
    rw [abs_mul] at e1
    calc _ ≤ _ := e0
      _ ≤ 4097 / 4096 * (4097 / 4096 * (2.2 * 0.04)) := by gcongr; exact e1.trans (by gcongr)
      _ ≤ _ := by norm_num
  have hge : 0 ≤ q.d.rnd (q.d.rnd (q.d.cos z * q.d.cos z) - q.s.rnd (d * d)) := by
    apply q.d.rnd_nonneg
    rw [sub_nonneg]
    have e1 := abs_rnd_12 hp (d * d)
    rw [abs_mul] at e1
    have e2 : |d| * |d| ≤ 0.01 := by
      have := mul_le_mul hdd hdd (abs_nonneg _) (by norm_num)
      linarith
    have e3 : q.s.rnd (d * d) ≤ 0.02 := (le_abs_self _).trans (by linarith)
    have e4 : 0.0361 ≤ q.d.cos z * q.d.cos z := by nlinarith
    have e5 := le_rnd_of_nonneg (r := q.d) (x := q.d.cos z * q.d.cos z) (by linarith)
    have e6 := Fl.u_le_12 hpd
    have e7 : q.d.cos z * q.d.cos z * (1 / 4096) ≥ q.d.u * (q.d.cos z * q.d.cos z) := by nlinarith
    nlinarith
  refine ⟨q.d.rnd √(q.d.rnd (q.d.rnd (q.d.cos z * q.d.cos z) - q.s.rnd (d * d))), ?_⟩
  simp only [satRH_eq]
  rw [satR_eq, satH_eq, two_eq, ofInt_eq, id_mul, rnd_two hpd, id_div _ (by linarith : q.d.rnd (2 * Fl.fH q.d) ≠ 0),
    dd_div_of _ hR.ne']
  simp only [cos_sgl, dd_mul, dd_sub, toFloating_dbl, ds_mul, ss_mul, ds_sub]
  exact sqrt_dbl hge

end Verif.Mx
