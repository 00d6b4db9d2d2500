import Verif.Proofs.FlGeo

/-!
# C57, C58: the back conversion in floating point arithmetic

`Fl r`: binary floating point numbers of `r.p` bits, every operation rounded to nearest (see `Verif/Base/Fl.lean`); the
library functions are arbitrary functions into the floating point numbers, except where a hypothesis says otherwise.
-/

namespace Verif.Props
open Verif Real Fl Verif.Geo Verif.FlGeo

variable {r : Rounding}

/-- A point of real coordinates as the code sees it. -/
def flpt (r : Rounding) (p : ℝ × ℝ × ℝ) : Fl r × Fl r × Fl r := (val p.1, val p.2.1, val p.2.2)

/-- the coordinates are floating point numbers -/
def RepPt (r : Rounding) (p : ℝ × ℝ × ℝ) : Prop := Rep r.p p.1 ∧ Rep r.p p.2.1 ∧ Rep r.p p.2.2

private theorem not_num_bad : ¬ IsNum (bad : Fl r) := by rintro ⟨a, _, h⟩; cases h

/-- **C57a**: with rounding, too, the longitude is a number exactly off the polar axis: `|x|` never exceeds the computed
root, however close `y` is to 0.  All three copies, any radius and threshold (numbers or not), any z. -/
theorem C57_lon_isNum_iff (R t : Fl r) (low : Bool) (x y : ℝ) (z : Fl r) (hx : Rep r.p x) :
    (IsNum (xyz2lonlat R t low (val x, val y, z)).1 ↔ ¬ (x = 0 ∧ y = 0)) ∧
    (IsNum (cyXyz2lonlat R t low (val x, val y, z)).1 ↔ ¬ (x = 0 ∧ y = 0)) ∧
    (IsNum (viiXyz2lonlat R t (val x, val y, z)).1 ↔ ¬ (x = 0 ∧ y = 0)) := by
  obtain ⟨s, _, e1, e2⟩ := asign_num (r := r) y
  have key : IsNum (rad2deg (Trig.acos ((val x : Fl r) / val (hyp r x y))) * val s) ↔ ¬ (x = 0 ∧ y = 0) := by
    refine ⟨fun h hxy => ?_, lon_num hx s⟩
    obtain ⟨rfl, rfl⟩ := hxy
    rw [lon_bad] at h
    exact not_num_bad h
  simp only [xyz2lonlat, cyXyz2lonlat, viiXyz2lonlat, toFloating_eq, toDouble_eq, hyp_val, e1, e2]
  exact ⟨key, key, key⟩

example (z : Fl (Rounding.correct 53 (by norm_num))) : IsNum (xyz2lonlat earthRadius defaultThr true (val 0, val (-1), z)).1 ∧
    ¬ IsNum (xyz2lonlat earthRadius defaultThr true (val 0, val 0, z)).1 :=
  ⟨(C57_lon_isNum_iff _ _ _ 0 (-1) z rep_zero).1.2 (by norm_num), fun h => (C57_lon_isNum_iff _ _ _ 0 0 z rep_zero).1.1 h ⟨rfl, rfl⟩⟩

/-- **C57b**: the latitude is a number for every point that is not far outside the sphere, whatever the roundings: the
squared distance from the centre at most 3/2 of the squared radius, at least 8 bits, threshold in [3/4, 1] (0.8 in the
code).  numpy version. -/
theorem C57_lat_isNum (hp : 8 ≤ r.p) (R t : ℝ) (p : ℝ × ℝ × ℝ) (hR : Rep r.p R) (hR0 : 0 < R)
    (ht1 : 3 / 4 ≤ t) (ht2 : t ≤ 1) (hball : Spec.normSq p ≤ 3 / 2 * R ^ 2) :
    IsNum (xyz2lonlat (val R) (val t) true (flpt r p)).2 := by
  obtain ⟨x, y, z⟩ := p
  obtain ⟨s, _, e1, -⟩ := asign_num (r := r) z
  simp only [Spec.normSq] at hball
  have hu := r.u_pos
  have hu' := u_le_8 hp
  simp only [xyz2lonlat, flpt, hyp_val, e1, if_true]
  rw [val_div_of_ne z hR0.ne', aabs_val, lt_val]
  by_cases hc : |r.rnd (z / R)| < t
  · simp only [hc, decide_true, if_true]
    have := latZ_num (r := r) (z := z) hR0.ne' (le_trans hc.le ht2)
    rwa [val_div_of_ne z hR0.ne'] at this
  · simp only [hc, decide_false, Bool.false_eq_true, if_false]
    apply latXY_num s hR0 (hyp_nonneg x y)
    apply hyp_le hR hR0.le
    apply near_axis hp hR0 hball
    have h1 : |r.rnd (z / R)| ≤ (1 + r.u) * |z / R| := by
      have := r.abs_rnd_sub_le_u (z / R)
      have h2 := abs_sub_abs_le_abs_sub (r.rnd (z / R)) (z / R)
      linarith
    rw [abs_div, abs_of_pos hR0] at h1
    have h3 : 3 / 4 * R ≤ (1 + r.u) * |z| := by
      have : 3 / 4 ≤ (1 + r.u) * (|z| / R) := by linarith [not_lt.1 hc]
      rw [← mul_div_assoc, le_div_iff₀ hR0] at this
      exact this
    by_contra hcon
    have h4 := mul_lt_mul_of_pos_left (not_le.1 hcon) (show (0 : ℝ) < 1 + r.u by linarith)
    have h5 : 0 < r.u * R := mul_pos hu hR0
    have h6 : 0 < r.u * (r.u * R) := mul_pos hu h5
    nlinarith

example : IsNum (xyz2lonlat (val 1) (val (4 / 5)) true (flpt (Rounding.correct 53 (by norm_num)) (1, 1 / 2, 0))).2 :=
  C57_lat_isNum (by show 8 ≤ 53; norm_num) _ _ _ (rep_one (by show 1 ≤ 53; norm_num)) (by norm_num) (by norm_num) (by norm_num)
    (by norm_num [Spec.normSq])

private theorem thr_bounds {R t : ℝ} (hp : 8 ≤ r.p) (hR : Rep r.p R) (hR0 : 0 < R) (ht1 : 3 / 4 ≤ t) (ht2 : t ≤ 1) :
    3 / 4 * (1 - 2 * r.u) * R ≤ r.rnd (t * R) ∧ r.rnd (t * R) ≤ R := by
  have hu := r.u_pos
  have hu' := u_le_8 hp
  constructor
  · have := le_rnd_of_nonneg (r := r) (x := t * R) (by nlinarith)
    have h2 : 3 / 4 * R ≤ t * R := by nlinarith
    nlinarith
  · apply r.rnd_le hR; nlinarith

private theorem abs_div_le {R z : ℝ} (hR0 : 0 < R) (h1 : -R ≤ z) (h2 : z ≤ R) : |r.rnd (z / R)| ≤ 1 := by
  apply r.rnd_abs_le (rep_one r.hp1)
  rw [abs_div, abs_of_pos hR0, div_le_one hR0]
  exact abs_le.2 ⟨h1, h2⟩

/-- **C57c**: the same for the VII copy. -/
theorem C57_vii_lat_isNum (hp : 8 ≤ r.p) (R t : ℝ) (p : ℝ × ℝ × ℝ) (hR : Rep r.p R) (hR0 : 0 < R)
    (ht1 : 3 / 4 ≤ t) (ht2 : t ≤ 1) (hball : Spec.normSq p ≤ 3 / 2 * R ^ 2) :
    IsNum (viiXyz2lonlat (val R) (val t) (flpt r p)).2 := by
  obtain ⟨x, y, z⟩ := p
  obtain ⟨s, _, e1, -⟩ := asign_num (r := r) z
  simp only [Spec.normSq] at hball
  obtain ⟨hl, hh⟩ := thr_bounds hp hR hR0 ht1 ht2
  simp only [viiXyz2lonlat, flpt, hyp_val, e1]
  simp only [val_mul, val_neg, lt_val]
  by_cases hc : z < r.rnd (t * R) ∧ -r.rnd (t * R) < z
  · simp only [hc.1, hc.2, decide_true, Bool.and_self, if_true]
    exact latZ_num hR0.ne' (abs_div_le hR0 (by linarith [hc.2]) (by linarith [hc.1]))
  · have hb : (decide (z < r.rnd (t * R)) && decide (-r.rnd (t * R) < z)) = false := by simpa using hc
    simp only [hb, Bool.false_eq_true, if_false]
    apply latXY_num s hR0 (hyp_nonneg x y)
    apply hyp_le hR hR0.le
    apply near_axis hp hR0 hball
    refine hl.trans ?_
    by_contra hcon
    exact hc ⟨(abs_lt.1 (not_le.1 hcon)).2, (abs_lt.1 (not_le.1 hcon)).1⟩

example : IsNum (viiXyz2lonlat (val 1) (val (4 / 5)) (flpt (Rounding.correct 53 (by norm_num)) (0, 0, 1))).2 :=
  C57_vii_lat_isNum (by show 8 ≤ 53; norm_num) _ _ _ (rep_one (by show 1 ≤ 53; norm_num)) (by norm_num) (by norm_num) (by norm_num)
    (by norm_num [Spec.normSq])

/-- **C57d**: the same for the Cython copy, where the lower threshold is computed separately as `-1.0 * thr * R`. -/
theorem C57_cy_lat_isNum (hp : 8 ≤ r.p) (R t : ℝ) (p : ℝ × ℝ × ℝ) (hR : Rep r.p R) (hR0 : 0 < R)
    (ht : Rep r.p t) (ht1 : 3 / 4 ≤ t) (ht2 : t ≤ 1) (hball : Spec.normSq p ≤ 3 / 2 * R ^ 2) :
    IsNum (cyXyz2lonlat (val R) (val t) true (flpt r p)).2 := by
  obtain ⟨x, y, z⟩ := p
  obtain ⟨s, _, -, e1⟩ := asign_num (r := r) z
  simp only [Spec.normSq] at hball
  have hu := r.u_pos
  have hu' := u_le_8 hp
  obtain ⟨hl, hh⟩ := thr_bounds hp hR hR0 ht1 ht2
  -- the lower threshold
  have em : r.rnd (-1 * t) = -t := by rw [neg_one_mul]; exact r.rnd_rep ht.neg
  have hl2 : -R ≤ r.rnd (-t * R) := r.le_rnd hR.neg (by nlinarith)
  have hh2 : r.rnd (-t * R) ≤ -(3 / 4 * (1 - 2 * r.u) * R) := by
    have := abs_le.1 (r.abs_rnd_sub_le_u (-t * R))
    rw [abs_of_nonpos (show -t * R ≤ 0 by nlinarith)] at this
    have h2 : 3 / 4 * R ≤ t * R := by nlinarith
    nlinarith [this.2]
  simp only [cyXyz2lonlat, toFloating_eq, toDouble_eq, flpt, hyp_val, e1, Bool.true_and]
  simp only [one_eq, val_neg, val_mul, lt_val, em]
  by_cases hc : z < r.rnd (t * R) ∧ r.rnd (-t * R) < z
  · simp only [hc.1, hc.2, decide_true, Bool.and_self, if_true]
    exact latZ_num hR0.ne' (abs_div_le hR0 (by linarith [hc.2]) (by linarith [hc.1]))
  · have hb : (decide (z < r.rnd (t * R)) && decide (r.rnd (-t * R) < z)) = false := by simpa using hc
    simp only [hb, Bool.false_eq_true, if_false]
    apply latXY_num s hR0 (hyp_nonneg x y)
    apply hyp_le hR hR0.le
    apply near_axis hp hR0 hball
    by_contra hcon
    have := abs_lt.1 (not_le.1 hcon)
    exact hc ⟨by linarith [this.2], by linarith [this.1]⟩

example : IsNum (cyXyz2lonlat (val 1) (val 1) true (flpt (Rounding.correct 53 (by norm_num)) (0, 0, 1))).2 :=
  C57_cy_lat_isNum (by show 8 ≤ 53; norm_num) _ _ _ (rep_one (by show 1 ≤ 53; norm_num)) (by norm_num)
    (rep_one (by show 1 ≤ 53; norm_num)) (by norm_num) (by norm_num) (by norm_num [Spec.normSq])

/-- The constants of the code meet the hypotheses: 6370997 is representable with 23 bits and more, and 0.8 rounded (to the
same or a smaller number of bits, as the float32 threshold beside doubles) is in [3/4, 1]. -/
theorem rep_earthRadius (hp : 23 ≤ r.p) : Rep r.p 6370997 := by
  have := rep_int r.hp1 (m := 6370997) (by
    have : (2 : ℤ) ^ 23 ≤ 2 ^ r.p := pow_le_pow_right₀ (by norm_num) hp
    rw [abs_of_nonneg (by norm_num)]
    exact le_trans (by norm_num) this)
  simpa using this

theorem thr_range (hp : 8 ≤ r.p) : 3 / 4 ≤ r.rnd (8 / 10) ∧ r.rnd (8 / 10) ≤ 1 := by
  have hu' := u_le_8 hp
  have := le_rnd_of_nonneg (r := r) (x := 8 / 10) (by norm_num)
  exact ⟨by linarith, r.rnd_le (rep_one r.hp1) (by norm_num)⟩

private theorem earthRadius_eq (hp : 23 ≤ r.p) : (earthRadius : Fl r) = val 6370997 := by
  show val (r.rnd (((63709970 : Nat) : ℝ) / (10 : ℝ) ^ 1)) = _
  rw [show ((63709970 : Nat) : ℝ) / (10 : ℝ) ^ 1 = 6370997 by norm_num, r.rnd_rep (rep_earthRadius hp)]

private theorem defaultThr_eq : (defaultThr : Fl r) = val (r.rnd (8 / 10)) := by
  show val (r.rnd (((8 : Nat) : ℝ) / (10 : ℝ) ^ 1)) = _
  norm_num

/-- **C57**, with the constants of the code: in float32, double or any wider arithmetic both copies used with
`EARTH_RADIUS` give a numeric longitude and latitude for every point off the polar axis whose distance from the centre
is at most 1.2 times the radius. -/
theorem C57_earth (hp : 23 ≤ r.p) (p : ℝ × ℝ × ℝ) (h : RepPt r p) (haxis : Spec.axisDistSq p ≠ 0)
    (hball : Spec.normSq p ≤ (12 / 10 * 6370997) ^ 2) :
    (IsNum (xyz2lonlat earthRadius defaultThr true (flpt r p)).1 ∧
      IsNum (xyz2lonlat earthRadius defaultThr true (flpt r p)).2) ∧
    (IsNum (cyXyz2lonlat earthRadius cyThr true (flpt r p)).1 ∧
      IsNum (cyXyz2lonlat earthRadius cyThr true (flpt r p)).2) := by
  have hp8 : 8 ≤ r.p := by omega
  have hne : ¬ (p.1 = 0 ∧ p.2.1 = 0) := by
    rintro ⟨a, b⟩
    exact haxis (by simp [Spec.axisDistSq, a, b])
  obtain ⟨h1, h2⟩ := thr_range hp8
  have hb : Spec.normSq p ≤ 3 / 2 * (6370997 : ℝ) ^ 2 := hball.trans (by norm_num)
  have hcy : (cyThr : Fl r) = defaultThr := rfl
  rw [earthRadius_eq hp, hcy, defaultThr_eq]
  have hl := C57_lon_isNum_iff (r := r) (val 6370997) (val (r.rnd (8 / 10))) true p.1 p.2.1 (val p.2.2) h.1
  exact ⟨⟨hl.1.2 hne, C57_lat_isNum hp8 _ _ p (rep_earthRadius hp) (by norm_num) h1 h2 hb⟩,
    ⟨hl.2.1.2 hne, C57_cy_lat_isNum hp8 _ _ p (rep_earthRadius hp) (by norm_num) (r.rep _) h1 h2 hb⟩⟩

example : IsNum (xyz2lonlat earthRadius defaultThr true
    (flpt (Rounding.correct 53 (by norm_num)) (6370997, 1, 0))).1 := by
  refine (C57_earth (r := Rounding.correct 53 (by norm_num)) (by show 23 ≤ 53; norm_num) _ ⟨?_, ?_, rep_zero⟩ ?_ ?_).1.1
  · exact rep_earthRadius (r := Rounding.correct 53 (by norm_num)) (by show 23 ≤ 53; norm_num)
  · exact rep_one (by show 1 ≤ 53; norm_num)
  · norm_num [Spec.axisDistSq]
  · norm_num [Spec.normSq]

/-! ## C58 -/

/-- two roundings do not see a small square -/
private theorem hyp_absorb {x y : ℝ} (hx : Rep r.p x) (hy : y ^ 2 ≤ r.u / 4 * x ^ 2) : hyp r x y = |x| := by
  rw [← r.sqrt_sq hx]
  unfold hyp
  congr 2
  rcases eq_or_ne x 0 with rfl | hx0
  · have : y = 0 := by
      have : y ^ 2 ≤ 0 := by simpa using hy
      exact pow_eq_zero_iff (two_ne_zero) |>.1 (le_antisymm this (sq_nonneg y))
    simp [this]
  have hu := r.u_pos
  have hu' := r.u_le
  set s := r.rnd (x * x) with hs
  set q := r.rnd (y * y) with hq
  have hsrep : Rep r.p s := r.rep _
  have hxx : 0 < x * x := mul_self_pos.2 hx0
  have hs0 : 0 < s := r.rnd_pos hxx
  have hq0 : 0 ≤ q := r.rnd_nonneg (mul_self_nonneg y)
  have hq1 : q ≤ (1 + r.u) * (y * y) := rnd_le_of_nonneg (mul_self_nonneg y)
  have hs1 : (1 - r.u) * (x * x) ≤ s := le_rnd_of_nonneg hxx.le
  -- q < u s: less than half the distance to the next number above
  have hqs : q < r.u * s := by
    have a : q ≤ (1 + r.u) * (r.u / 4 * (x * x)) := by nlinarith
    have b : (1 + r.u) * (r.u / 4 * (x * x)) < r.u * ((1 - r.u) * (x * x)) := by
      have : 0 < r.u * (x * x) := mul_pos hu hxx
      nlinarith
    nlinarith
  -- the rounded sum is a number between s and s + q... so it is s
  set E := expo r.p s with hE
  have hEp := two_zpow_pos E
  have hlo : (2 : ℝ) ^ (E + r.p - 1) ≤ s := by
    have := expo_le (p := r.p) hs0.ne'
    rwa [abs_of_pos hs0] at this
  have hhi : s < (2 : ℝ) ^ (E + r.p) := by
    have := lt_expo (p := r.p) s
    rwa [abs_of_pos hs0] at this
  have hus : r.u * s < 2 ^ E := by
    have h1 : r.u * (2 : ℝ) ^ (E + r.p) = 2 ^ E := by
      unfold Rounding.u
      rw [← zpow_add₀ (by norm_num)]
      congr 1; ring
    nlinarith
  set v := r.rnd (s + q) with hv
  have hvs : s ≤ v := r.le_rnd hsrep (by linarith)
  obtain ⟨M, hM⟩ := Rep.grid hsrep (E := E) (by rwa [abs_of_pos hs0])
  obtain ⟨N, hN⟩ := Rep.grid (r.rep (s + q)) (E := E) (by
    rw [abs_of_pos (lt_of_lt_of_le hs0 hvs)]; linarith)
  rw [← hv] at hN
  have hnear := r.near (s + q) s hsrep
  rw [← hv, show s - (s + q) = -q by ring, abs_neg, abs_of_nonneg hq0] at hnear
  have hv2 : v ≤ s + 2 * q := by linarith [(abs_le.1 hnear).2]
  -- 2 q < 2 u s < 2 * 2^E; sharpen with q ≤ u x² (1+u)/4
  have hq4 : 2 * q < 2 ^ E := by
    have a : q ≤ (1 + r.u) * (r.u / 4 * (x * x)) := by nlinarith
    have b : 2 * ((1 + r.u) * (r.u / 4 * (x * x))) ≤ r.u * ((1 - r.u) * (x * x)) := by
      have : 0 < r.u * (x * x) := mul_pos hu hxx
      nlinarith
    have c : r.u * ((1 - r.u) * (x * x)) ≤ r.u * s := mul_le_mul_of_nonneg_left hs1 hu.le
    linarith
  have h1 : (N : ℝ) - M < 1 := by
    by_contra hcon
    rw [not_lt] at hcon
    have : (N : ℝ) * 2 ^ E - M * 2 ^ E ≥ 2 ^ E := by nlinarith
    rw [← hN, ← hM] at this
    linarith
  have h2 : (0 : ℝ) ≤ N - M := by
    by_contra hcon
    rw [not_le] at hcon
    have : (N : ℝ) * 2 ^ E - M * 2 ^ E < 0 := by nlinarith
    rw [← hN, ← hM] at this
    linarith
  have h3 : N = M := by
    have a : N - M < 1 := by exact_mod_cast h1
    have b : 0 ≤ N - M := by exact_mod_cast h2
    omega
  rw [hN, hM, h3]

/-- The computed longitude of a point close to the meridian 0. -/
theorem C58_collapse (R t : Fl r) (low : Bool) (x y : ℝ) (z : Fl r) (hx : Rep r.p x) (hx0 : 0 < x)
    (hacos : r.acos 1 = 0) (hy : y ^ 2 ≤ r.u / 4 * x ^ 2) :
    (xyz2lonlat R t low (val x, val y, z)).1 = val 0 ∧
    (cyXyz2lonlat R t low (val x, val y, z)).1 = val 0 ∧
    (viiXyz2lonlat R t (val x, val y, z)).1 = val 0 := by
  obtain ⟨s, _, e1, e2⟩ := asign_num (r := r) y
  have key : rad2deg (Trig.acos ((val x : Fl r) / val (hyp r x y))) * val s = val 0 := by
    rw [hyp_absorb hx hy, abs_of_pos hx0, val_div_of_ne _ hx0.ne', div_self hx0.ne', r.rnd_one,
      acos_val_of (by norm_num), hacos]
    unfold rad2deg
    have : (180 : Fl r) = val (r.rnd ((180 : Nat) : ℤ)) := rfl
    rw [this, pi_eq, val_div_of_ne _ pi_ne, val_mul, zero_mul, r.rnd_zero, val_mul, zero_mul, r.rnd_zero]
  simp only [xyz2lonlat, cyXyz2lonlat, viiXyz2lonlat, toFloating_eq, toDouble_eq, hyp_val, e1, e2]
  exact ⟨key, key, key⟩

/-- **C58, negation**: longitudes near 0 are not told apart.  In arithmetic of `p` bits (any `p`, any rounding, any
library with `acos 1 = 0`) the two points `(2^k, ±1, 0)`, with `k` about `p/2`, off the meridian 0 by about `2^-k`
radians to the east and to the west, both get the longitude 0.  For float32 (`p = 24`, `k = 13`) this is 0.007 degrees or
780 m on the equator; for doubles (`k = 28`) 2.4 cm. -/
theorem C58_negation (R t : Fl r) (low : Bool) (k : Nat) (hk : r.p + 2 ≤ 2 * k) (hacos : r.acos 1 = 0) :
    (xyz2lonlat R t low (flpt r ((2 : ℝ) ^ k, 1, 0))).1 = (xyz2lonlat R t low (flpt r ((2 : ℝ) ^ k, -1, 0))).1 ∧
    (xyz2lonlat R t low (flpt r ((2 : ℝ) ^ k, 1, 0))).1 = val 0 := by
  have hx : Rep r.p ((2 : ℝ) ^ k) := by
    have := (rep_one r.hp1).scale (k : ℤ)
    rwa [one_mul, zpow_natCast] at this
  have hc : (1 : ℝ) ≤ r.u / 4 * ((2 : ℝ) ^ k) ^ 2 := by
    unfold Rounding.u
    rw [show (4 : ℝ) = 2 ^ (2 : ℤ) by norm_num, ← zpow_sub₀ (by norm_num), ← pow_mul, ← zpow_natCast, ← zpow_add₀ (by norm_num)]
    exact one_le_zpow₀ (by norm_num) (by push_cast; omega)
  have h1 := (C58_collapse R t low _ 1 (val 0) hx (by positivity) hacos (by simpa using hc)).1
  have h2 := (C58_collapse R t low _ (-1) (val 0) hx (by positivity) hacos (by simpa using hc)).1
  exact ⟨by simp only [flpt]; rw [h1, h2], h1⟩

/-- **C58 (partial)**: the longitude never gets the wrong sign (in any arithmetic of at least 2 bits, for a library whose
`acos` is not negative).  Missing: that it is not 0 east and west of the meridian 0, which is false (`C58_negation`). -/
theorem C58_sign_partial (R t : Fl r) (low : Bool) (x y : ℝ) (z : Fl r) (lon : ℝ)
    (hacos : ∀ a, 0 ≤ r.acos a) (h : (xyz2lonlat R t low (val x, val y, z)).1 = val lon) :
    (0 < y → 0 ≤ lon) ∧ (y < 0 → lon ≤ 0) := by
  simp only [xyz2lonlat, hyp_val, asign_val] at h
  by_cases h0 : hyp r x y = 0
  · rw [h0, val_div, if_pos rfl] at h; cases h
  rw [val_div_of_ne _ h0] at h
  by_cases h1 : |r.rnd (x / hyp r x y)| ≤ 1
  · rw [acos_val_of h1] at h
    have hq : 0 ≤ r.rnd (r.rnd ((180 : Nat) : ℤ) / r.rnd Real.pi) :=
      r.rnd_nonneg (div_nonneg (r.rnd_nonneg (by positivity)) (r.rnd_nonneg Real.pi_pos.le))
    have e : rad2deg (val (r.acos (r.rnd (x / hyp r x y))) : Fl r)
        = val (r.rnd (r.acos (r.rnd (x / hyp r x y)) * r.rnd (r.rnd ((180 : Nat) : ℤ) / r.rnd Real.pi))) := by
      unfold rad2deg
      have : (180 : Fl r) = val (r.rnd ((180 : Nat) : ℤ)) := rfl
      rw [this, pi_eq, val_div_of_ne _ pi_ne, val_mul]
    have hb := r.rnd_nonneg (mul_nonneg (hacos (r.rnd (x / hyp r x y))) hq)
    rw [e, val_mul] at h
    injection h with h
    constructor
    · intro hy
      rw [← h, if_pos hy, mul_one]
      exact r.rnd_nonneg hb
    · intro hy
      rw [← h, if_neg (not_lt_of_gt hy), if_pos hy, mul_neg_one]
      exact r.rnd_nonpos (by linarith)
  · have : (Trig.acos (val (r.rnd (x / hyp r x y))) : Fl r) = bad := by
      show unit1 _ _ = _
      rw [unit1, if_neg (fun hh => h1 (abs_le.2 hh))]
    rw [this] at h
    cases h

example (z : Fl (Rounding.correct 53 (by norm_num))) (lon : ℝ) (hacos : ∀ a, 0 ≤ (Rounding.correct 53 (by norm_num)).acos a)
    (h : (xyz2lonlat earthRadius defaultThr true (val (-3), val (-2), z)).1 = val lon) : lon ≤ 0 :=
  (C58_sign_partial _ _ _ _ _ z lon hacos h).2 (by norm_num)

/-- correctly rounded functions have `acos 1 = 0` -/
private theorem correct_acos_one (p : Nat) (hp : 2 ≤ p) : (Rounding.correct p hp).acos 1 = 0 := by
  show nearest p (Real.arccos 1) = 0
  rw [Real.arccos_one]
  simp [nearest]

example (z : Fl (Rounding.correct 24 (by norm_num))) :
    (cyXyz2lonlat earthRadius defaultThr true (val 1, val (1 / 2 ^ 14), z)).1 = val 0 := by
  refine (C58_collapse _ _ _ 1 _ z (rep_one (by show 1 ≤ 24; norm_num)) one_pos (correct_acos_one 24 _) ?_).2.1
  have : (Rounding.correct 24 (by norm_num)).u = 1 / 2 ^ 24 := by norm_num [Rounding.u, Rounding.correct]
  rw [this]
  norm_num

example : (xyz2lonlat (earthRadius : Fl (Rounding.correct 24 (by norm_num))) defaultThr true
      (flpt _ ((2 : ℝ) ^ 13, 1, 0))).1 = val 0 :=
  (C58_negation earthRadius defaultThr true 13 (by show 24 + 2 ≤ 26; norm_num) (correct_acos_one 24 _)).2

/-! ## C59 -/

/-- what is assumed of the library: the angles are in the ranges of the functions, the ends being the floating point
numbers for pi and half of it -/
structure AngleRange (r : Rounding) : Prop where
  acos : ∀ a, -1 ≤ a → a ≤ 1 → 0 ≤ r.acos a ∧ r.acos a ≤ r.rnd Real.pi
  asin : ∀ a, 0 ≤ a → a ≤ 1 → 0 ≤ r.asin a ∧ r.asin a ≤ r.rnd Real.pi / 2

/-- correctly rounded functions have the ranges -/
theorem angleRange_correct (p : Nat) (hp : 2 ≤ p) : AngleRange (Rounding.correct p hp) where
  acos a _ _ := by
    refine ⟨(Rounding.correct p hp).rnd_nonneg (Real.arccos_nonneg a), (Rounding.correct p hp).mono (Real.arccos_le_pi a)⟩
  asin a h0 _ := by
    refine ⟨(Rounding.correct p hp).rnd_nonneg (Real.arcsin_nonneg.2 h0), ?_⟩
    have h2 : Rep (Rounding.correct p hp).p ((Rounding.correct p hp).rnd Real.pi / 2) := by
      have := ((Rounding.correct p hp).rep Real.pi).scale (-1)
      rwa [zpow_neg_one, ← div_eq_mul_inv] at this
    refine ((Rounding.correct p hp).mono (Real.arcsin_le_pi_div_two a)).trans ?_
    -- the last bit of pi/2 is half the last bit of pi
    show nearest p (Real.pi / 2) ≤ nearest p Real.pi / 2
    have he : expo p (Real.pi / 2) = expo p Real.pi - 1 := by
      unfold expo
      have h3 := Real.pi_gt_three
      have h4 := Real.pi_lt_four
      have e1 : Int.log 2 |Real.pi| = 1 := by
        rw [abs_of_pos Real.pi_pos]
        apply le_antisymm
        · have := (Int.lt_zpow_iff_log_lt (b := 2) (by norm_num) (x := 2) Real.pi_pos).1 (by norm_num; exact h4)
          omega
        · exact (Int.zpow_le_iff_le_log (b := 2) (by norm_num) (x := 1) Real.pi_pos).1 (by norm_num; linarith)
      have e2 : Int.log 2 |Real.pi / 2| = 0 := by
        rw [abs_of_pos (by positivity)]
        apply le_antisymm
        · have := (Int.lt_zpow_iff_log_lt (b := 2) (by norm_num) (x := 1) (half_pos Real.pi_pos)).1 (by norm_num; linarith)
          omega
        · exact (Int.zpow_le_iff_le_log (b := 2) (by norm_num) (x := 0) (half_pos Real.pi_pos)).1 (by norm_num; linarith)
      rw [e1, e2]; ring
    unfold nearest
    rw [he, zpow_sub_one₀ (by norm_num)]
    apply le_of_eq
    have hp0 := (two_zpow_pos (expo p Real.pi)).ne'
    rw [show Real.pi / 2 / (2 ^ expo p Real.pi * 2⁻¹) = Real.pi / 2 ^ expo p Real.pi by field_simp]
    ring

private theorem lon_range (hp : 8 ≤ r.p) (hl : AngleRange r) {c : Fl r} {y lon : ℝ}
    (h : rad2deg (Trig.acos c) * asign (val y) = val lon) : -180 ≤ lon ∧ lon ≤ 180 := by
  cases c with
  | bad => cases h
  | val c =>
    by_cases hc : -1 ≤ c ∧ c ≤ 1
    · rw [acos_val_of (abs_le.2 hc), rad2deg_val hp, asign_val, val_mul] at h
      injection h with h
      obtain ⟨a, b⟩ := hl.acos c hc.1 hc.2
      have hq := degFactor_nonneg (r := r)
      have h0 : 0 ≤ r.rnd (r.acos c * degFactor r) := r.rnd_nonneg (mul_nonneg a hq)
      have h1 : r.rnd (r.acos c * degFactor r) ≤ 180 := by
        rw [← rad2deg_pi hp]; exact r.mono (mul_le_mul_of_nonneg_right b hq)
      rw [← h]
      have h180 := rep_180 (r := r) hp
      constructor
      · apply r.le_rnd h180.neg
        split_ifs <;> linarith
      · apply r.rnd_le h180
        split_ifs <;> linarith
    · have : (Trig.acos (val c) : Fl r) = bad := by
        show unit1 _ _ = _
        rw [unit1, if_neg hc]
      rw [this] at h; cases h

private theorem latZ_range (hp : 8 ≤ r.p) (hl : AngleRange r) {c : Fl r} {lat : ℝ}
    (h : 90 - rad2deg (Trig.acos c) = val lat) : -90 ≤ lat ∧ lat ≤ 90 := by
  cases c with
  | bad => cases h
  | val c =>
    by_cases hc : -1 ≤ c ∧ c ≤ 1
    · have e90 : (90 : Fl r) = val 90 := by
        rw [num90]; push_cast; rw [r.rnd_rep (rep_90 hp)]
      rw [acos_val_of (abs_le.2 hc), rad2deg_val hp, e90, val_sub] at h
      injection h with h
      obtain ⟨a, b⟩ := hl.acos c hc.1 hc.2
      have hq := degFactor_nonneg (r := r)
      have h0 : 0 ≤ r.rnd (r.acos c * degFactor r) := r.rnd_nonneg (mul_nonneg a hq)
      have h1 : r.rnd (r.acos c * degFactor r) ≤ 180 := by
        rw [← rad2deg_pi hp]; exact r.mono (mul_le_mul_of_nonneg_right b hq)
      rw [← h]
      exact ⟨r.le_rnd (rep_90 hp).neg (by linarith), r.rnd_le (rep_90 hp) (by linarith)⟩
    · have : (Trig.acos (val c) : Fl r) = bad := by
        show unit1 _ _ = _
        rw [unit1, if_neg hc]
      rw [this] at h; cases h

private theorem latXY_range (hp : 8 ≤ r.p) (hl : AngleRange r) {d R z lat : ℝ} (hd : 0 ≤ d) (hR : 0 < R)
    (h : asign (val z) * (90 - rad2deg (Trig.asin ((val d : Fl r) / val R))) = val lat) : -90 ≤ lat ∧ lat ≤ 90 := by
  rw [val_div_of_ne _ hR.ne'] at h
  set c := r.rnd (d / R) with hc'
  have hc0 : 0 ≤ c := r.rnd_nonneg (div_nonneg hd hR.le)
  by_cases hc : c ≤ 1
  · have e90 : (90 : Fl r) = val 90 := by
      rw [num90]; push_cast; rw [r.rnd_rep (rep_90 hp)]
    rw [asin_val_of (by rw [abs_of_nonneg hc0]; exact hc), rad2deg_val hp, e90, val_sub, asign_val, val_mul] at h
    injection h with h
    obtain ⟨a, b⟩ := hl.asin c hc0 hc
    have hq := degFactor_nonneg (r := r)
    have h0 : 0 ≤ r.rnd (r.asin c * degFactor r) := r.rnd_nonneg (mul_nonneg a hq)
    have h1 : r.rnd (r.asin c * degFactor r) ≤ 90 := by
      rw [← rad2deg_half_pi hp]; exact r.mono (mul_le_mul_of_nonneg_right b hq)
    have h2 : 0 ≤ r.rnd (90 - r.rnd (r.asin c * degFactor r)) := r.rnd_nonneg (by linarith)
    have h3 : r.rnd (90 - r.rnd (r.asin c * degFactor r)) ≤ 90 := r.rnd_le (rep_90 hp) (by linarith)
    rw [← h]
    constructor
    · apply r.le_rnd (rep_90 hp).neg
      split_ifs <;> linarith
    · apply r.rnd_le (rep_90 hp)
      split_ifs <;> linarith
  · have : (Trig.asin (val c) : Fl r) = bad := by
      show unit1 _ _ = _
      rw [unit1, if_neg (fun hh => hc hh.2)]
    rw [this, asign_val] at h; cases h

private theorem csign_eq (y : ℝ) : csign (val y : Fl r) = asign (val y) := by
  obtain ⟨s, _, e1, e2⟩ := asign_num (r := r) y
  rw [e1, e2]

/-- **C59**: with rounding, too, longitudes are in [-180, 180] and latitudes in [-90, 90], for any finite point, at least 8
bits, any positive radius, any threshold; the conversion factor `180 / pi` is rounded so that pi becomes exactly 180. -/
theorem C59_range (hp : 8 ≤ r.p) (hl : AngleRange r) (R : ℝ) (t : Fl r) (low : Bool) (hR : 0 < R) (p : ℝ × ℝ × ℝ) :
    (∀ lon, (xyz2lonlat (val R) t low (flpt r p)).1 = val lon → -180 ≤ lon ∧ lon ≤ 180) ∧
    (∀ lat, (xyz2lonlat (val R) t low (flpt r p)).2 = val lat → -90 ≤ lat ∧ lat ≤ 90) ∧
    (∀ lon, (cyXyz2lonlat (val R) t low (flpt r p)).1 = val lon → -180 ≤ lon ∧ lon ≤ 180) ∧
    (∀ lat, (cyXyz2lonlat (val R) t low (flpt r p)).2 = val lat → -90 ≤ lat ∧ lat ≤ 90) ∧
    (∀ lon, (viiXyz2lonlat (val R) t (flpt r p)).1 = val lon → -180 ≤ lon ∧ lon ≤ 180) ∧
    (∀ lat, (viiXyz2lonlat (val R) t (flpt r p)).2 = val lat → -90 ≤ lat ∧ lat ≤ 90) := by
  obtain ⟨x, y, z⟩ := p
  simp only [xyz2lonlat, cyXyz2lonlat, viiXyz2lonlat, toFloating_eq, toDouble_eq, flpt, hyp_val, csign_eq]
  have hxy : ∀ lat, asign (val z) * (90 - rad2deg (Trig.asin ((val (hyp r x y) : Fl r) / val R))) = val lat →
      -90 ≤ lat ∧ lat ≤ 90 := fun lat => latXY_range hp hl (hyp_nonneg x y) hR
  refine ⟨fun lon => lon_range hp hl, fun lat h => ?_, fun lon => lon_range hp hl, fun lat h => ?_,
    fun lon => lon_range hp hl, fun lat h => ?_⟩
  · split_ifs at h
    exacts [latZ_range hp hl h, hxy lat h, hxy lat h]
  · split_ifs at h
    exacts [latZ_range hp hl h, hxy lat h]
  · split_ifs at h
    exacts [latZ_range hp hl h, hxy lat h]

example (lon : ℝ) (h : (xyz2lonlat (val 6370997) (val (4/5)) true
    (flpt (Rounding.correct 53 (by norm_num)) (-6370997, 1, 0))).1 = val lon) : -180 ≤ lon ∧ lon ≤ 180 :=
  (C59_range (by show 8 ≤ 53; norm_num) (angleRange_correct 53 (by norm_num)) _ _ _ (by norm_num) _).1 lon h

end Verif.Props
