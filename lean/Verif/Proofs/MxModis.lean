import Verif.Base.Mx
import Verif.Model.ModisInterp
import Verif.Proofs.FlLin

/-!
# The MODIS interpolation in mixed precision: the parts with `float` variables only

These are the same as in the arithmetic with `float` only (`Fl q.s`).
-/

namespace Verif.Mx
open Verif Verif.Modis Verif.Geo
variable {q : Mixed}

/-- a `float` -/
def embS : Fl q.s → Mx q
  | .val x => sgl x
  | .bad => bad

theorem embS_add (a b : Fl q.s) : embS a + embS b = embS (a + b) := by cases a <;> cases b <;> rfl
theorem embS_sub (a b : Fl q.s) : embS a - embS b = embS (a - b) := by cases a <;> cases b <;> rfl
theorem embS_mul (a b : Fl q.s) : embS a * embS b = embS (a * b) := by cases a <;> cases b <;> rfl
theorem one_sub_embS (a : Fl q.s) : 1 - embS a = embS (1 - a) := by cases a <;> rfl
theorem embS_div_int (a : Fl q.s) (n : ℤ) : embS a / Arith.ofInt n = embS (a / Arith.ofInt n) := by
  cases a with
  | bad => rfl
  | val a =>
    show (if q.s.rnd (n : ℝ) = 0 then bad else sgl _) = embS (if q.s.rnd (n : ℝ) = 0 then Fl.bad else Fl.val _)
    split <;> rfl

theorem fineComponent_mx (t s a b c d : Fl q.s) :
    fineComponent (embS t) (embS s) (embS a) (embS b) (embS c) (embS d) = embS (fineComponent t s a b c d) := by
  unfold fineComponent
  simp only [one_sub_embS, embS_mul, embS_add]

theorem atrackAscan_mx (f : Nat) (x y ce ca : Fl q.s) :
    atrackAscan f (embS x) (embS y) (embS ce) (embS ca)
      = (embS (atrackAscan f x y ce ca).1, embS (atrackAscan f x y ce ca).2) := by
  unfold atrackAscan
  simp only [embS_div_int, one_sub_embS, embS_mul, embS_add]

/-- the coordinates of the 5 km interpolation are integers -/
theorem getCoords_mx (cfg : Cfg) (h : cfg.len ≠ 10) (i : Nat) :
    (getCoords cfg).1.cell i = embS ((getCoords cfg).1.cell i : Fl q.s) ∧
    (getCoords cfg).2.cell i = embS ((getCoords cfg).2.cell i : Fl q.s) := by
  unfold getCoords
  rw [if_neg h, if_neg h]
  refine ⟨?_, rfl⟩
  show Trig.toFloating (coordX5km cfg i) = embS (coordX5km cfg i)
  unfold coordX5km
  simp only []
  split_ifs <;> rfl

theorem isF_iff {x : Mx q} : IsF x ↔ ∃ a : Fl q.s, Fl.IsNum a ∧ x = embS a := by
  constructor
  · rintro ⟨a, h, rfl⟩; exact ⟨.val a, ⟨a, h, rfl⟩, rfl⟩
  · rintro ⟨_, ⟨a, h, rfl⟩, rfl⟩; exact ⟨a, h, rfl⟩

/-! ### numbers -/

theorem isD_mul {x y : Mx q} (hx : IsD x) (hy : IsD y) : IsD (x * y) := by
  obtain ⟨a, _, rfl⟩ := hx
  obtain ⟨b, _, rfl⟩ := hy
  exact ⟨_, q.d.rep _, rfl⟩

theorem isD_sin {x : Mx q} (hx : IsF x) : IsD (Trig.sin x) := by
  obtain ⟨a, _, rfl⟩ := hx
  exact ⟨_, q.d.sin_rep _, sin_sgl a⟩

theorem isD_cos {x : Mx q} (hx : IsF x) : IsD (Trig.cos x) := by
  obtain ⟨a, _, rfl⟩ := hx
  exact ⟨_, q.d.cos_rep _, cos_sgl a⟩

theorem isF_toFloating {x : Mx q} (hx : IsD x) : IsF (Trig.toFloating x) := by
  obtain ⟨a, _, rfl⟩ := hx
  exact ⟨_, q.s.rep _, rfl⟩

/-- the factor `pi / 180` -/
noncomputable def radFactor (q : Mixed) : ℝ := q.d.rnd (q.d.rnd Real.pi / q.d.rnd ((180 : ℤ) : ℝ))

theorem cyDeg2rad_mx (x : ℝ) : cyDeg2rad (sgl x : Mx q) = sgl (q.s.rnd (q.d.rnd (x * radFactor q))) := by
  unfold cyDeg2rad radFactor
  rw [ofNat_eq, pi_eq, di_div _ _ (by norm_num), sd_mul, toFloating_dbl]
  rfl

theorem isF_cyDeg2rad {x : Mx q} (hx : IsF x) : IsF (cyDeg2rad x) := by
  obtain ⟨a, _, rfl⟩ := hx
  exact ⟨_, q.s.rep _, cyDeg2rad_mx a⟩

theorem isD_earthRadius : IsD (earthRadius : Mx q) := ⟨_, q.d.rep _, rfl⟩

theorem isF_cyLonlat2xyz {lon lat : Mx q} (h1 : IsF lon) (h2 : IsF lat) :
    IsF (cyLonlat2xyz earthRadius lon lat).1 ∧ IsF (cyLonlat2xyz earthRadius lon lat).2.1 ∧
    IsF (cyLonlat2xyz earthRadius lon lat).2.2 := by
  have a := isD_cos (isF_cyDeg2rad h2)
  have b := isD_cos (isF_cyDeg2rad h1)
  have c := isD_sin (isF_cyDeg2rad h2)
  have d := isD_sin (isF_cyDeg2rad h1)
  exact ⟨isF_toFloating (isD_mul (isD_mul isD_earthRadius a) b), isF_toFloating (isD_mul (isD_mul isD_earthRadius a) d),
    isF_toFloating (isD_mul isD_earthRadius c)⟩

end Verif.Mx
