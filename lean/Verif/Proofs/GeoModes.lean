import Verif.Props.GeoSphere
import Mathlib.Analysis.Convex.Deriv
import Mathlib.Analysis.Convex.Jensen
import Mathlib.Analysis.SpecialFunctions.Trigonometric.Arctan
import Mathlib.Analysis.Real.Pi.Bounds

/-!
# Means of longitudes and latitudes, and of points of the sphere
-/

namespace Verif.Props
open Verif Verif.Spec Verif.Geo FP Real

private theorem convex_cos (c : ℝ) (hc : |c| ≤ 1) (φ : ℝ) : ConvexOn ℝ Set.univ (fun x => x ^ 2 / 2 + c * cos (x + φ)) := by
  have hd : ∀ x, HasDerivAt (fun x => x ^ 2 / 2 + c * cos (x + φ)) (x - c * sin (x + φ)) x := by
    intro x
    have h1 : HasDerivAt (fun x : ℝ => x ^ 2 / 2) x x := by
      have := (hasDerivAt_pow 2 x).div_const 2
      have e : ((2 : ℕ) : ℝ) * x ^ (2 - 1) / 2 = x := by norm_num
      rwa [e] at this
    have h2 : HasDerivAt (fun x : ℝ => c * cos (x + φ)) (c * (-sin (x + φ) * 1)) x :=
      (((hasDerivAt_id x).add_const φ).cos).const_mul c
    have := h1.add h2
    have e : x + c * (-sin (x + φ) * 1) = x - c * sin (x + φ) := by ring
    rw [e] at this
    exact this
  have hdiff : Differentiable ℝ (fun x => x ^ 2 / 2 + c * cos (x + φ)) := fun x => (hd x).differentiableAt
  refine MonotoneOn.convexOn_of_deriv convex_univ hdiff.continuous.continuousOn hdiff.differentiableOn ?_
  rw [interior_univ]
  intro x _ y _ hxy
  rw [(hd x).deriv, (hd y).deriv]
  have h := abs_le.1 (abs_sin_sub_sin_le (y + φ) (x + φ))
  have h2 : |y + φ - (x + φ)| = y - x := by rw [show y + φ - (x + φ) = y - x by ring]; exact abs_of_nonneg (by linarith)
  rw [h2] at h
  obtain ⟨c1, c2⟩ := abs_le.1 hc
  have : c * (sin (y + φ) - sin (x + φ)) ≤ y - x := by
    have h3 : |c * (sin (y + φ) - sin (x + φ))| ≤ 1 * (y - x) := by
      rw [abs_mul]
      exact mul_le_mul hc (abs_le.2 h) (abs_nonneg _) (by norm_num)
    linarith [le_abs_self (c * (sin (y + φ) - sin (x + φ)))]
  linarith

/-- the mean of the cosines of angles that differ by at most `√D` is the cosine of their mean, up to `D / 4` -/
theorem mean_cos {n : Nat} {D : ℝ} (w x : Fin n → ℝ) (hw : ∀ i, 0 ≤ w i) (hs : ∑ i, w i = 1)
    (hD : ∀ i j, (x i - x j) ^ 2 ≤ D) (φ : ℝ) : |∑ i, w i * cos (x i + φ) - cos ((∑ i, w i * x i) + φ)| ≤ D / 4 := by
  have hv := var_sum w x hs
  have hle : ∑ i, ∑ j, w i * w j * (x i - x j) ^ 2 ≤ D := by
    calc _ ≤ ∑ i, ∑ j, w i * w j * D :=
          Finset.sum_le_sum fun i _ => Finset.sum_le_sum fun j _ => mul_le_mul_of_nonneg_left (hD i j) (mul_nonneg (hw i) (hw j))
      _ = D := by
        have : ∀ i, ∑ j, w i * w j * D = w i * D := by
          intro i
          rw [← Finset.sum_mul, ← Finset.mul_sum, hs, mul_one]
        simp only [this]
        rw [← Finset.sum_mul, hs, one_mul]
  rw [hv] at hle
  have jen : ∀ c, |c| ≤ 1 → (∑ i, w i * x i) ^ 2 / 2 + c * cos ((∑ i, w i * x i) + φ)
      ≤ (∑ i, w i * x i ^ 2) / 2 + c * ∑ i, w i * cos (x i + φ) := by
    intro c hc
    have := (convex_cos c hc φ).map_sum_le (t := Finset.univ) (w := w) (p := x) (fun i _ => hw i) hs (fun i _ => Set.mem_univ _)
    simp only [smul_eq_mul] at this
    refine this.trans (le_of_eq ?_)
    rw [Finset.mul_sum, Finset.sum_div, ← Finset.sum_add_distrib]
    exact Finset.sum_congr rfl fun i _ => by ring
  have j1 := jen 1 (by norm_num)
  have j2 := jen (-1) (by norm_num)
  rw [abs_le]
  constructor <;> linarith

/-- an angle whose sine is small compared with its cosine -/
theorem angle_near {δ t : ℝ} (hc : 0 < cos δ) (hs : |sin δ| ≤ t * cos δ) (h2 : |δ| < 2 * π) :
    |δ| ≤ t ∨ 2 * π - t ≤ |δ| := by
  have core : ∀ δ : ℝ, 0 ≤ δ → δ < π / 2 → 0 < cos δ → |sin δ| ≤ t * cos δ → δ ≤ t := by
    intro δ h0 h1 hc hs
    have h3 := le_tan h0 h1
    rw [tan_eq_sin_div_cos] at h3
    have h4 : sin δ / cos δ ≤ t := by
      rw [div_le_iff₀ hc]; exact (le_abs_self _).trans hs
    linarith
  have hc' : 0 < cos |δ| := by rwa [cos_abs]
  have hs' : |sin (|δ|)| ≤ t * cos |δ| := by
    rw [cos_abs]
    rcases abs_choice δ with e | e <;> rw [e]
    · exact hs
    · rw [sin_neg, abs_neg]; exact hs
  rcases lt_or_ge |δ| (π / 2) with h | h
  · exact Or.inl (core _ (abs_nonneg _) h hc' hs')
  · rcases le_or_gt |δ| (π + π / 2) with h3 | h3
    · exact absurd (cos_nonpos_of_pi_div_two_le_of_le h h3) (not_le.2 hc')
    · right
      have := core (2 * π - |δ|) (by linarith) (by linarith) (by rw [cos_two_pi_sub]; exact hc')
        (by rw [cos_two_pi_sub, sin_two_pi_sub, abs_neg]; exact hs')
      linarith

/-- what the means of points of the sphere are, in coordinates turned to the mean longitude -/
theorem mean_point {n : Nat} {R η : ℝ} (w lon lat : Fin n → ℝ) (hw : ∀ i, 0 ≤ w i) (hs : ∑ i, w i = 1)
    (ha : ∀ i j, |rad (lon i) - rad (lon j)| ≤ η) (hb : ∀ i j, |rad (lat i) - rad (lat j)| ≤ η) :
    ∃ X Y Z, |X - cos (rad (∑ i, w i * lat i))| ≤ η ^ 2 ∧ |Y| ≤ η ^ 2 ∧ |Z - sin (rad (∑ i, w i * lat i))| ≤ η ^ 2 / 4 ∧
      wsum w (fun i => spherePoint R (lon i) (lat i))
        = (R * (X * cos (rad (∑ i, w i * lon i)) - Y * sin (rad (∑ i, w i * lon i))),
           R * (X * sin (rad (∑ i, w i * lon i)) + Y * cos (rad (∑ i, w i * lon i))), R * Z) := by
  have hrad : ∀ f : Fin n → ℝ, rad (∑ i, w i * f i) = ∑ i, w i * rad (f i) := by
    intro f
    unfold rad
    rw [Finset.sum_mul]
    exact Finset.sum_congr rfl fun i _ => by ring
  obtain ⟨α, hα⟩ : ∃ α, α = rad (∑ i, w i * lon i) := ⟨_, rfl⟩
  obtain ⟨β, hβ⟩ : ∃ β, β = rad (∑ i, w i * lat i) := ⟨_, rfl⟩
  rw [← hα, ← hβ]
  have hα' : α = ∑ i, w i * rad (lon i) := by rw [hα, hrad]
  have hβ' : β = ∑ i, w i * rad (lat i) := by rw [hβ, hrad]
  have sq : ∀ u v : ℝ, |u| ≤ v → u ^ 2 ≤ v ^ 2 := fun u v h => by
    rw [← sq_abs]; exact pow_le_pow_left₀ (abs_nonneg u) h 2
  have dplus : ∀ i j, ((rad (lat i) + rad (lon i)) - (rad (lat j) + rad (lon j))) ^ 2 ≤ 4 * η ^ 2 := by
    intro i j
    have h1 := abs_le.1 (ha i j)
    have h2 := abs_le.1 (hb i j)
    have := sq ((rad (lat i) + rad (lon i)) - (rad (lat j) + rad (lon j))) (2 * η) (abs_le.2 ⟨by linarith, by linarith⟩)
    linarith [this, mul_pow 2 η 2]
  have dminus : ∀ i j, ((rad (lat i) - rad (lon i)) - (rad (lat j) - rad (lon j))) ^ 2 ≤ 4 * η ^ 2 := by
    intro i j
    have h1 := abs_le.1 (ha i j)
    have h2 := abs_le.1 (hb i j)
    have := sq ((rad (lat i) - rad (lon i)) - (rad (lat j) - rad (lon j))) (2 * η) (abs_le.2 ⟨by linarith, by linarith⟩)
    linarith [this, mul_pow 2 η 2]
  have mplus : ∑ i, w i * (rad (lat i) + rad (lon i)) = β + α := by
    rw [hα', hβ', ← Finset.sum_add_distrib]
    exact Finset.sum_congr rfl fun i _ => by ring
  have mminus : ∑ i, w i * (rad (lat i) - rad (lon i)) = β - α := by
    rw [hα', hβ', ← Finset.sum_sub_distrib]
    exact Finset.sum_congr rfl fun i _ => by ring
  -- the four means
  have cp := mean_cos w (fun i => rad (lat i) + rad (lon i)) hw hs dplus (-α)
  have cm := mean_cos w (fun i => rad (lat i) - rad (lon i)) hw hs dminus α
  have sp := mean_cos w (fun i => rad (lat i) + rad (lon i)) hw hs dplus (-α - π / 2)
  have sm := mean_cos w (fun i => rad (lat i) - rad (lon i)) hw hs dminus (α - π / 2)
  have zz := mean_cos w (fun i => rad (lat i)) hw hs (fun i j => sq _ _ (hb i j)) (-(π / 2))
  rw [mplus, show β + α + -α = β by ring] at cp
  rw [mminus, show β - α + α = β by ring] at cm
  rw [mplus, show β + α + (-α - π / 2) = β - π / 2 by ring, cos_sub_pi_div_two] at sp
  rw [mminus, show β - α + (α - π / 2) = β - π / 2 by ring, cos_sub_pi_div_two] at sm
  rw [← hβ', ← sub_eq_add_neg, cos_sub_pi_div_two] at zz
  refine ⟨∑ i, w i * (cos (rad (lat i)) * cos (rad (lon i) - α)), ∑ i, w i * (cos (rad (lat i)) * sin (rad (lon i) - α)),
    ∑ i, w i * sin (rad (lat i)), ?_, ?_, ?_, ?_⟩
  · have e : ∑ i, w i * (cos (rad (lat i)) * cos (rad (lon i) - α))
        = (∑ i, w i * cos (rad (lat i) + rad (lon i) + -α) + ∑ i, w i * cos (rad (lat i) - rad (lon i) + α)) / 2 := by
      rw [← Finset.sum_add_distrib, Finset.sum_div]
      refine Finset.sum_congr rfl fun i _ => ?_
      rw [show rad (lat i) + rad (lon i) + -α = rad (lat i) + (rad (lon i) - α) by ring,
        show rad (lat i) - rad (lon i) + α = rad (lat i) - (rad (lon i) - α) by ring]
      generalize rad (lon i) - α = γ
      rw [cos_add, cos_sub]
      ring
    rw [e]
    obtain ⟨a1, a2⟩ := abs_le.1 cp
    obtain ⟨b1, b2⟩ := abs_le.1 cm
    rw [abs_le]
    constructor <;> linarith
  · have e : ∑ i, w i * (cos (rad (lat i)) * sin (rad (lon i) - α))
        = (∑ i, w i * cos (rad (lat i) + rad (lon i) + (-α - π / 2)) - ∑ i, w i * cos (rad (lat i) - rad (lon i) + (α - π / 2))) / 2 := by
      rw [← Finset.sum_sub_distrib, Finset.sum_div]
      refine Finset.sum_congr rfl fun i _ => ?_
      rw [show rad (lat i) + rad (lon i) + (-α - π / 2) = rad (lat i) + (rad (lon i) - α) - π / 2 by ring,
        show rad (lat i) - rad (lon i) + (α - π / 2) = rad (lat i) - (rad (lon i) - α) - π / 2 by ring]
      generalize rad (lon i) - α = γ
      rw [cos_sub_pi_div_two, cos_sub_pi_div_two, sin_add, sin_sub]
      ring
    rw [e]
    obtain ⟨a1, a2⟩ := abs_le.1 sp
    obtain ⟨b1, b2⟩ := abs_le.1 sm
    rw [abs_le]
    constructor <;> linarith
  · have e : ∑ i, w i * sin (rad (lat i)) = ∑ i, w i * cos (rad (lat i) + -(π / 2)) :=
      Finset.sum_congr rfl fun i _ => by rw [← sub_eq_add_neg, cos_sub_pi_div_two]
    rw [e]
    exact zz
  · have sc := sin_sq_add_cos_sq α
    refine Prod.ext ?_ (Prod.ext ?_ ?_)
    · show ∑ i, w i * (R * cos (rad (lat i)) * cos (rad (lon i))) = _
      simp only [Finset.sum_mul, Finset.mul_sum, ← Finset.sum_sub_distrib]
      refine Finset.sum_congr rfl fun i _ => ?_
      have : cos (rad (lon i)) = cos (rad (lon i) - α) * cos α - sin (rad (lon i) - α) * sin α := by
        rw [← cos_add, sub_add_cancel]
      rw [this]; ring
    · show ∑ i, w i * (R * cos (rad (lat i)) * sin (rad (lon i))) = _
      simp only [Finset.sum_mul, Finset.mul_sum, ← Finset.sum_add_distrib]
      refine Finset.sum_congr rfl fun i _ => ?_
      have : sin (rad (lon i)) = cos (rad (lon i) - α) * sin α + sin (rad (lon i) - α) * cos α := by
        rw [add_comm, ← sin_add, sub_add_cancel]
      rw [this]; ring
    · show ∑ i, w i * (R * sin (rad (lat i))) = _
      simp only [Finset.mul_sum]
      exact Finset.sum_congr rfl fun i _ => by ring

end Verif.Props
