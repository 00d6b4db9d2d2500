import Verif.Proofs.MxGeo
import Verif.Props.FlGeo

/-!
# C57, C58, C59: the Cython back conversion in mixed precision

`Mx q`: float32 coordinates and results, computation with doubles (see `Verif/Base/Mx.lean`).
-/

namespace Verif.Props
open Verif Mx Verif.Geo
variable {q : Mixed}

/-- A point of real coordinates as an element of the float32 array. -/
def sglpt (q : Mixed) (p : ℝ × ℝ × ℝ) : Mx q × Mx q × Mx q := (sgl p.1, sgl p.2.1, sgl p.2.2)

/-- the threshold as a float32 -/
noncomputable def thrS (q : Mixed) : ℝ := q.s.rnd (q.d.rnd (8 / 10))

theorem cyThr_mx : (cyThr : Mx q) = sgl (thrS q) := by
  show Trig.toFloating (Arith.lit 8 1 : Mx q) = _
  rw [lit_eq, toFloating_dbl]
  unfold thrS
  norm_num

theorem thrS_range (hp : 8 ≤ q.s.p) : 3 / 4 ≤ thrS q ∧ thrS q ≤ 1 := by
  have rep34 : ∀ {p : Nat}, 8 ≤ p → Rep p (3 / 4 : ℝ) := by
    intro p h
    refine ⟨3, -2, ?_, by norm_num⟩
    have : (2 : ℤ) ^ 8 ≤ 2 ^ p := pow_le_pow_right₀ (by norm_num) h
    rw [abs_of_nonneg (by norm_num)]
    exact lt_of_lt_of_le (by norm_num) this
  have hd : 8 ≤ q.d.p := hp.trans q.le
  exact ⟨q.s.le_rnd (rep34 hp) (q.d.le_rnd (rep34 hd) (by norm_num)),
    q.s.rnd_le (rep_one q.s.hp1) (q.d.rnd_le (rep_one q.d.hp1) (by norm_num))⟩

theorem isF_out {a : Fl q.d} : IsF (out a) ↔ ∃ x, a = Fl.val x := by
  constructor
  · intro h
    cases a with
    | val x => exact ⟨x, rfl⟩
    | bad => exact absurd h not_isF_bad
  · rintro ⟨x, rfl⟩
    exact ⟨_, q.s.rep _, rfl⟩

theorem isF_out_of {a : Fl q.d} (h : Fl.IsNum a) : IsF (out a) := by
  obtain ⟨x, _, e⟩ := h
  exact isF_out.2 ⟨x, e⟩

/-- the conversion with the constants of the code -/
theorem cy_code_mx (low : Bool) (p : ℝ × ℝ × ℝ) :
    cyXyz2lonlat earthRadius cyThr low (sglpt q p)
      = (out (cyXyz2lonlat earthRadius (Fl.val (thrS q)) low (flpt q.d p)).1,
         out (cyXyz2lonlat earthRadius (Fl.val (thrS q)) low (flpt q.d p)).2) := by
  rw [cyThr_mx]
  exact cyXyz2lonlat_mx (q := q) earthRadius low (t := thrS q) (q.s.rep _) p.1 p.2.1 p.2.2

private theorem earthRadius_d (hp : 23 ≤ q.d.p) : (earthRadius : Fl q.d) = Fl.val 6370997 := by
  show Fl.val (q.d.rnd (((63709970 : Nat) : ℝ) / (10 : ℝ) ^ 1)) = _
  rw [show ((63709970 : Nat) : ℝ) / (10 : ℝ) ^ 1 = 6370997 by norm_num, q.d.rnd_rep (rep_earthRadius hp)]

/-- **C57 (mixed precision)**: the Cython conversion as the MODIS interpolation runs it — float32 coordinates, doubles inside,
float32 results, the constants of the code: the longitude is a number exactly off the polar axis, and there the latitude
is a number as well if the distance from the centre is at most 1.2 times the radius.  Any roundings with at least 8 bits
for `float` and 23 bits for `double`, any library. -/
theorem C57_mixed (hp : 23 ≤ q.d.p) (hs : 8 ≤ q.s.p) (p : ℝ × ℝ × ℝ) (h : RepPt q.s p) :
    (IsF (cyXyz2lonlat earthRadius cyThr true (sglpt q p)).1 ↔ Spec.axisDistSq p ≠ 0) ∧
    (Spec.normSq p ≤ (12 / 10 * 6370997) ^ 2 → IsF (cyXyz2lonlat earthRadius cyThr true (sglpt q p)).2) := by
  have hp8 : 8 ≤ q.d.p := by omega
  have hax : Spec.axisDistSq p ≠ 0 ↔ ¬ (p.1 = 0 ∧ p.2.1 = 0) := by
    unfold Spec.axisDistSq
    rw [not_iff_not]
    constructor
    · intro h0
      have a := sq_nonneg p.1
      have b := sq_nonneg p.2.1
      exact ⟨pow_eq_zero_iff (two_ne_zero) |>.1 (by linarith), pow_eq_zero_iff (two_ne_zero) |>.1 (by linarith)⟩
    · rintro ⟨a, b⟩; rw [a, b]; norm_num
  obtain ⟨h1, h2⟩ := thrS_range hs
  have hl := (C57_lon_isNum_iff (r := q.d) earthRadius (Fl.val (thrS q)) true p.1 p.2.1 (Fl.val p.2.2) (rep_d h.1)).2.1
  rw [cy_code_mx]
  constructor
  · rw [hax, ← hl]
    constructor
    · intro hf
      obtain ⟨x, hx⟩ := isF_out.1 hf
      by_contra hcon
      rw [hl, not_not] at hcon
      have : (cyXyz2lonlat earthRadius (Fl.val (thrS q)) true (flpt q.d p)).1 = Fl.bad := by
        obtain ⟨a, b⟩ := hcon
        have e : flpt q.d p = (Fl.val 0, Fl.val 0, Fl.val p.2.2) := by simp [flpt, a, b]
        rw [e]
        obtain ⟨s, _, _, e2⟩ := FlGeo.asign_num (r := q.d) 0
        simp only [cyXyz2lonlat, Fl.toDouble_eq, Fl.toFloating_eq, FlGeo.hyp_val, e2]
        exact FlGeo.lon_bad _
      rw [this] at hx
      cases hx
    · exact fun hn => isF_out_of hn
  · intro hball
    have hb : Spec.normSq p ≤ 3 / 2 * (6370997 : ℝ) ^ 2 := hball.trans (by norm_num)
    refine isF_out_of ?_
    rw [earthRadius_d hp]
    exact C57_cy_lat_isNum hp8 _ _ p (rep_earthRadius hp) (by norm_num) (rep_d (q.s.rep _)) h1 h2 hb

example : IsF (cyXyz2lonlat earthRadius cyThr true (sglpt Mixed.ieee (6370997, 1, 0))).1 := by
  refine (C57_mixed (q := Mixed.ieee) (by show 23 ≤ 53; norm_num) (by show 8 ≤ 24; norm_num) _ ⟨?_, ?_, rep_zero⟩).1.2 ?_
  · exact rep_earthRadius (r := Rounding.correct 24 (by norm_num)) (by show 23 ≤ 24; norm_num)
  · exact rep_one (by show 1 ≤ 24; norm_num)
  · norm_num [Spec.axisDistSq]

/-- **C58, negation (mixed precision)**: the doubles inside the Cython conversion do not help everywhere: the two points
`(2^k, ±1, 0)` of float32 coordinates get the same float32 longitude 0 (`k = 28` for doubles: 2.4 cm on the equator). -/
theorem C58_mixed_negation (low : Bool) (k : Nat) (hk : q.d.p + 2 ≤ 2 * k) (hacos : q.d.acos 1 = 0) :
    RepPt q.s ((2 : ℝ) ^ k, 1, 0) ∧
    (cyXyz2lonlat earthRadius cyThr low (sglpt q ((2 : ℝ) ^ k, 1, 0))).1 = sgl 0 ∧
    (cyXyz2lonlat earthRadius cyThr low (sglpt q ((2 : ℝ) ^ k, -1, 0))).1 = sgl 0 := by
  have hxs : Rep q.s.p ((2 : ℝ) ^ k) := by
    have := (rep_one q.s.hp1).scale (k : ℤ)
    rwa [one_mul, zpow_natCast] at this
  have hc : (1 : ℝ) ≤ q.d.u / 4 * ((2 : ℝ) ^ k) ^ 2 := by
    unfold Rounding.u
    rw [show (4 : ℝ) = 2 ^ (2 : ℤ) by norm_num, ← zpow_sub₀ (by norm_num), ← pow_mul, ← zpow_natCast, ← zpow_add₀ (by norm_num)]
    exact one_le_zpow₀ (by norm_num) (by push_cast; omega)
  have key : ∀ y : ℝ, y ^ 2 = 1 → (cyXyz2lonlat earthRadius cyThr low (sglpt q ((2 : ℝ) ^ k, y, 0))).1 = sgl 0 := by
    intro y hy
    rw [cy_code_mx]
    have := (C58_collapse (r := q.d) earthRadius (Fl.val (thrS q)) low _ y (Fl.val 0) (rep_d hxs) (by positivity) hacos
      (by rw [hy]; exact hc)).2.1
    show out (cyXyz2lonlat earthRadius (Fl.val (thrS q)) low (Fl.val ((2 : ℝ) ^ k), Fl.val y, Fl.val 0)).1 = _
    rw [this]
    show sgl (q.s.rnd 0) = sgl 0
    rw [q.s.rnd_zero]
  exact ⟨⟨hxs, rep_one q.s.hp1, rep_zero⟩, key 1 (by norm_num), key (-1) (by norm_num)⟩

example : (cyXyz2lonlat earthRadius cyThr true (sglpt Mixed.ieee ((2 : ℝ) ^ 28, -1, 0))).1 = sgl 0 := by
  refine (C58_mixed_negation (q := Mixed.ieee) true 28 (by show 53 + 2 ≤ 56; norm_num) ?_).2.2
  show nearest 53 (Real.arccos 1) = 0
  rw [Real.arccos_one]; simp [nearest]

private theorem out_bound {a : Fl q.d} {c v : ℝ} (hc : Rep q.s.p c) (h : ∀ w, a = Fl.val w → -c ≤ w ∧ w ≤ c)
    (e : out a = sgl v) : -c ≤ v ∧ v ≤ c := by
  cases a with
  | bad => cases e
  | val w =>
    have e' : (sgl (q.s.rnd w) : Mx q) = sgl v := e
    injection e' with e'
    obtain ⟨h1, h2⟩ := h w rfl
    rw [← e']
    exact ⟨q.s.le_rnd hc.neg h1, q.s.rnd_le hc h2⟩

/-- **C59 (mixed precision)**: the float32 longitudes and latitudes of the Cython conversion are in [-180, 180] and
[-90, 90]. -/
theorem C59_mixed (hp : 23 ≤ q.d.p) (hs : 8 ≤ q.s.p) (hl : AngleRange q.d) (low : Bool) (p : ℝ × ℝ × ℝ) :
    (∀ lon, (cyXyz2lonlat earthRadius cyThr low (sglpt q p)).1 = sgl lon → -180 ≤ lon ∧ lon ≤ 180) ∧
    (∀ lat, (cyXyz2lonlat earthRadius cyThr low (sglpt q p)).2 = sgl lat → -90 ≤ lat ∧ lat ≤ 90) := by
  obtain ⟨-, -, h1, h2, -, -⟩ := C59_range (r := q.d) (by omega) hl 6370997 (Fl.val (thrS q)) low (by norm_num) p
  rw [cy_code_mx, earthRadius_d hp]
  exact ⟨fun lon e => out_bound (FlGeo.rep_180 hs) h1 e, fun lat e => out_bound (FlGeo.rep_90 hs) h2 e⟩

example (lon : ℝ) (h : (cyXyz2lonlat earthRadius cyThr true (sglpt Mixed.ieee (-6370997, 1, 0))).1 = sgl lon) :
    -180 ≤ lon ∧ lon ≤ 180 :=
  (C59_mixed (q := Mixed.ieee) (by show 23 ≤ 53; norm_num) (by show 8 ≤ 24; norm_num) (angleRange_correct 53 (by norm_num)) _ _).1 lon h

end Verif.Props
