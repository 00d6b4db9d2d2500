import Verif.Props.GeoSphere
import Verif.Proofs.Arc

/-!
# C93: geographic interpolation along great circles

Along a row or a column of tie points the interpolation follows the great circle arcs between neighbours, at nearly uniform speed.
-/

namespace Verif.Props
open Verif Verif.Interpolator Verif.Spec Verif.Presets Verif.Grid Verif.Geo FP Real

/-- the tie point `(i, j)` as a point of the sphere of the code's radius -/
noncomputable def tiePoint (lons lats : List (List ℝ)) (i j : Nat) : ℝ × ℝ × ℝ :=
  spherePoint 6370997 ((lons.getD i []).getD j 0) ((lats.getD i []).getD j 0)

theorem axisDistSq_scale (c : ℝ) (p : ℝ × ℝ × ℝ) : axisDistSq (scale c p) = c ^ 2 * axisDistSq p := by
  simp only [axisDistSq, scale]; ring

theorem root_scale {c : ℝ} (hc : 0 < c) (p : ℝ × ℝ × ℝ) : √(axisDistSq (scale c p)) = c * √(axisDistSq p) := by
  rw [axisDistSq_scale, sqrt_mul (sq_nonneg c), sqrt_sq hc.le]

theorem geocentricLat_scale {c : ℝ} (hc : 0 < c) (p : ℝ × ℝ × ℝ) : geocentricLat (scale c p) = geocentricLat p := by
  simp only [geocentricLat, root_scale hc]
  rw [show (scale c p).2.2 = c * p.2.2 from rfl, mul_div_mul_left _ _ hc.ne']

theorem onAntimeridian_scale {c : ℝ} (hc : 0 < c) (p : ℝ × ℝ × ℝ) : onAntimeridian (scale c p) ↔ onAntimeridian p := by
  simp only [onAntimeridian, scale, mul_eq_zero, hc.ne', false_or]
  rw [mul_neg_iff]
  constructor
  · rintro ⟨a, b | b⟩
    · exact ⟨a, b.2⟩
    · exact absurd b.1 (by linarith)
  · rintro ⟨a, b⟩
    exact ⟨a, Or.inl ⟨hc, b⟩⟩

theorem hasLon_scale {c : ℝ} (hc : 0 < c) {A : ℝ} {p : ℝ × ℝ × ℝ} (h : HasLon A (scale c p)) : HasLon A p := by
  obtain ⟨h1, h2, h3, h4⟩ := h
  rw [root_scale hc, mul_assoc] at h3 h4
  exact ⟨h1, h2, mul_left_cancel₀ hc.ne' h3, mul_left_cancel₀ hc.ne' h4⟩

/-- **C93 (conversion)**: the point a fraction `t` of the way along the straight line between two points of the sphere, whose squared
distance is at most `d` times the squared radius (`d ≤ 1/100`), is reported as a point of the great circle arc between the two, a
fraction `f` of the way, where `f` differs from `t` by at most `d / 50`: the longitude is that of the point of the arc (off the
polar axis and the 180-degree meridian), the latitude is within `20 * d` degrees. -/
theorem C93_chord (R d t a b a' b' : ℝ) (hR : 0 < R) (hd0 : 0 ≤ d) (hd : d ≤ 1 / 100) (t0 : 0 ≤ t) (t1 : t ≤ 1)
    (near : distSq (spherePoint R a b) (spherePoint R a' b') ≤ d * R ^ 2) (p : ℝ × ℝ × ℝ)
    (hp : p = chordPoint (spherePoint R a b) (spherePoint R a' b') t) :
    ∃ f r, 0 ≤ f ∧ f ≤ 1 ∧ |f - t| ≤ d / 50 ∧ OnArc R (spherePoint R a b) (spherePoint R a' b') f r ∧
      (axisDistSq r ≠ 0 →
        (∃ B, |B - geocentricLat r| ≤ 20 * d ∧ (xyz2lonlat (val R) (val (8 / 10)) true (pt p)).2 = val B) ∧
        (¬ onAntimeridian r → ∃ A, HasLon A r ∧ (xyz2lonlat (val R) (val (8 / 10)) true (pt p)).1 = val A)) := by
  have n1 := normSq_spherePoint R a b
  have n2 := normSq_spherePoint R a' b'
  have near' := near
  have key := chord_onArc (R := R) (d := d) (t := t) (p := spherePoint R a b) (q := spherePoint R a' b') hR hd
    (by rw [← n1]; simp only [dot, normSq]; ring) (by rw [← n2]; simp only [dot, normSq]; ring)
    (by simp only [distSq, normSq, dot] at *; nlinarith) t0 t1
  obtain ⟨f, r, ρ, f0, f1, hf, arc, hρ, e⟩ := key
  refine ⟨f, r, f0, f1, hf, arc, fun hax => ?_⟩
  have ep : p = scale ρ r := hp.trans e
  have hax' : axisDistSq p ≠ 0 := by
    rw [ep, axisDistSq_scale]
    exact mul_ne_zero (pow_ne_zero 2 hρ.ne') hax
  constructor
  · have sym : distSq (spherePoint R a' b') (spherePoint R a b) ≤ d * R ^ 2 := by
      simp only [distSq] at near ⊢; linarith
    have same : ∀ u : ℝ × ℝ × ℝ, distSq u u ≤ d * R ^ 2 := by
      intro u
      have : 0 ≤ d * R ^ 2 := by positivity
      simpa [distSq] using this
    obtain ⟨B, hB, eB, _⟩ := C91_lat R d hR hd0 hd ![1 - t, t] ![a, a'] ![b, b']
      (by intro i; fin_cases i <;> simp <;> linarith) (by simp [Fin.sum_univ_two])
      (by intro i j; fin_cases i <;> fin_cases j <;> simp [same, near, sym]) p
      (by
        rw [hp]
        simp [wsum, Fin.sum_univ_two, chordPoint]) hax'
    rw [ep, geocentricLat_scale hρ] at hB
    exact ⟨B, hB, eB⟩
  · intro han
    obtain ⟨A, hA, eA, _⟩ := C91_lon R (8 / 10) true p hR hax' (by rw [ep, onAntimeridian_scale hρ]; exact han)
    rw [ep] at hA
    exact ⟨A, hasLon_scale hρ hA, eA⟩

/-- **C93 (grids)**: a geographic grid interpolator as in `C91_grid`. At a fine point on a row of tie points, between two neighbours at
a squared distance of at most `d` times the squared radius, the result is, as in `C93_chord`, a point of the great circle arc
between the neighbours, at a fraction of the way within `d / 50` of the fraction of the way between their positions; the same on
columns. -/
theorem C93_grid (tok : TokIn Unit (FP ℝ) → Nat) (be : Bool) (fill : Option (FP ℝ)) (Y X : List ℝ)
    (hY : Y.Pairwise (· < ·)) (hX : X.Pairwise (· < ·)) (h2y : 2 ≤ Y.length) (h2x : 2 ≤ X.length)
    (lons lats : List (List ℝ)) (h1 : Dims Y.length X.length lons) (h2 : Dims Y.length X.length lats) (fy fx : List ℝ)
    (hin : be = true → (∀ y ∈ fy, Inside Y y) ∧ ∀ x ∈ fx, Inside X x) :
    ∃ is lo la, mkGeo (singleGrid (fun _ => linearKernel) be fill (Y.map val) (X.map val))
        [.array (vals lons), .array (vals lats)] = .ok is ∧
      interpolateGeo tok is [fy.map val, fx.map val] none () = .ok (lo, la) ∧
      Shape fy.length fx.length lo ∧ Shape fy.length fx.length la ∧
      ∀ d a b, 0 ≤ d → d ≤ 1 / 100 → ∀ (ha : a < fy.length) (hb : b < fx.length),
        (∀ i j, ∀ (hi : i < Y.length) (hj : j + 1 < X.length), fy[a] = Y[i] → X[j] ≤ fx[b] → fx[b] ≤ X[j + 1] →
          distSq (tiePoint lons lats i j) (tiePoint lons lats i (j + 1)) ≤ d * 6370997 ^ 2 →
          ∃ f r, 0 ≤ f ∧ f ≤ 1 ∧ |f - (fx[b] - X[j]) / (X[j + 1] - X[j])| ≤ d / 50 ∧
            OnArc 6370997 (tiePoint lons lats i j) (tiePoint lons lats i (j + 1)) f r ∧
            (axisDistSq r ≠ 0 → (∃ B, |B - geocentricLat r| ≤ 20 * d ∧ el (row la a) b = val B) ∧
              (¬ onAntimeridian r → ∃ A, HasLon A r ∧ el (row lo a) b = val A))) ∧
        (∀ i j, ∀ (hi : i + 1 < Y.length) (hj : j < X.length), fx[b] = X[j] → Y[i] ≤ fy[a] → fy[a] ≤ Y[i + 1] →
          distSq (tiePoint lons lats i j) (tiePoint lons lats (i + 1) j) ≤ d * 6370997 ^ 2 →
          ∃ f r, 0 ≤ f ∧ f ≤ 1 ∧ |f - (fy[a] - Y[i]) / (Y[i + 1] - Y[i])| ≤ d / 50 ∧
            OnArc 6370997 (tiePoint lons lats i j) (tiePoint lons lats (i + 1) j) f r ∧
            (axisDistSq r ≠ 0 → (∃ B, |B - geocentricLat r| ≤ 20 * d ∧ el (row la a) b = val B) ∧
              (¬ onAntimeridian r → ∃ A, HasLon A r ∧ el (row lo a) b = val A))) := by
  obtain ⟨is, lo, la, e1, e2, e3, e4, e5⟩ := grid_geo_point tok be fill Y X hY hX h2y h2x lons lats h1 h2 fy fx hin
  refine ⟨is, lo, la, e1, e2, e3, e4, ?_⟩
  intro d a b hd0 hd ha hb
  have gY : ∀ k (h : k < Y.length), Y.getD k 0 = Y[k] := fun k h => getD_of_lt Y 0 h
  have gX : ∀ k (h : k < X.length), X.getD k 0 = X[k] := fun k h => getD_of_lt X 0 h
  have fin : ∀ P Q : ℝ × ℝ, ∀ t, 0 ≤ t → t ≤ 1 →
      distSq (spherePoint 6370997 P.1 P.2) (spherePoint 6370997 Q.1 Q.2) ≤ d * 6370997 ^ 2 → ∀ p,
      p = chordPoint (spherePoint 6370997 P.1 P.2) (spherePoint 6370997 Q.1 Q.2) t →
      el (row lo a) b = (Geo.xyz2lonlat (val 6370997) (val (8 / 10)) true (pt p)).1 →
      el (row la a) b = (Geo.xyz2lonlat (val 6370997) (val (8 / 10)) true (pt p)).2 →
      ∃ f r, 0 ≤ f ∧ f ≤ 1 ∧ |f - t| ≤ d / 50 ∧ OnArc 6370997 (spherePoint 6370997 P.1 P.2) (spherePoint 6370997 Q.1 Q.2) f r ∧
        (axisDistSq r ≠ 0 → (∃ B, |B - geocentricLat r| ≤ 20 * d ∧ el (row la a) b = val B) ∧
          (¬ onAntimeridian r → ∃ A, HasLon A r ∧ el (row lo a) b = val A)) := by
    intro P Q t t0 t1 near p hp k1 k2
    rw [k1, k2]
    exact C93_chord 6370997 d t P.1 P.2 Q.1 Q.2 (by norm_num) hd0 hd t0 t1 near p hp
  constructor
  · intro i j hi hj hy x1 x2 near
    have hX' : X[j] < X[j + 1] := sorted_lt hX (Nat.lt_succ_self j) hj
    have t0 : 0 ≤ (fx[b] - X[j]) / (X[j + 1] - X[j]) := div_nonneg (by linarith) (by linarith)
    have t1 : (fx[b] - X[j]) / (X[j + 1] - X[j]) ≤ 1 := by rw [div_le_one (by linarith)]; linarith
    by_cases hlast : i + 1 < Y.length
    · have hY' : Y[i] < Y[i + 1] := sorted_lt hY (Nat.lt_succ_self i) hlast
      obtain ⟨k1, k2⟩ := e5 a b i j ha hb hlast hj hy.ge (by rw [hy]; exact hY'.le) x1 x2
      refine fin ((lons.getD i []).getD j 0, (lats.getD i []).getD j 0)
        ((lons.getD i []).getD (j + 1) 0, (lats.getD i []).getD (j + 1) 0) _ t0 t1 near _ ?_ k1 k2
      simp only [bilinPoint, bilin, chordPoint, hy, gY i hi, gX j (by omega), gX (j + 1) hj, sub_self, zero_div, sub_zero, one_mul,
        zero_mul, add_zero]
    · obtain ⟨m, rfl⟩ : ∃ m, i = m + 1 := ⟨i - 1, by omega⟩
      have hY' : Y[m] < Y[m + 1] := sorted_lt hY (Nat.lt_succ_self m) hi
      obtain ⟨k1, k2⟩ := e5 a b m j ha hb hi hj (by rw [hy]; exact hY'.le) hy.le x1 x2
      refine fin ((lons.getD (m + 1) []).getD j 0, (lats.getD (m + 1) []).getD j 0)
        ((lons.getD (m + 1) []).getD (j + 1) 0, (lats.getD (m + 1) []).getD (j + 1) 0) _ t0 t1 near _ ?_ k1 k2
      simp only [bilinPoint, bilin, chordPoint, hy, gY m (by omega), gY (m + 1) hi, gX j (by omega), gX (j + 1) hj,
        div_self (sub_pos.2 hY').ne', sub_self, zero_mul, zero_add, one_mul]
  · intro i j hi hj hx y1 y2 near
    have hY' : Y[i] < Y[i + 1] := sorted_lt hY (Nat.lt_succ_self i) hi
    have t0 : 0 ≤ (fy[a] - Y[i]) / (Y[i + 1] - Y[i]) := div_nonneg (by linarith) (by linarith)
    have t1 : (fy[a] - Y[i]) / (Y[i + 1] - Y[i]) ≤ 1 := by rw [div_le_one (by linarith)]; linarith
    by_cases hlast : j + 1 < X.length
    · have hX' : X[j] < X[j + 1] := sorted_lt hX (Nat.lt_succ_self j) hlast
      obtain ⟨k1, k2⟩ := e5 a b i j ha hb hi hlast y1 y2 hx.ge (by rw [hx]; exact hX'.le)
      refine fin ((lons.getD i []).getD j 0, (lats.getD i []).getD j 0)
        ((lons.getD (i + 1) []).getD j 0, (lats.getD (i + 1) []).getD j 0) _ t0 t1 near _ ?_ k1 k2
      simp only [bilinPoint, bilin, chordPoint, hx, gX j hj, gY i (by omega), gY (i + 1) hi, sub_self, zero_div, sub_zero, one_mul,
        zero_mul, add_zero]
    · obtain ⟨m, rfl⟩ : ∃ m, j = m + 1 := ⟨j - 1, by omega⟩
      have hX' : X[m] < X[m + 1] := sorted_lt hX (Nat.lt_succ_self m) hj
      obtain ⟨k1, k2⟩ := e5 a b i m ha hb hi hj y1 y2 (by rw [hx]; exact hX'.le) hx.le
      refine fin ((lons.getD i []).getD (m + 1) 0, (lats.getD i []).getD (m + 1) 0)
        ((lons.getD (i + 1) []).getD (m + 1) 0, (lats.getD (i + 1) []).getD (m + 1) 0) _ t0 t1 near _ ?_ k1 k2
      simp only [bilinPoint, bilin, chordPoint, hx, gX m (by omega), gX (m + 1) hj, gY i (by omega), gY (i + 1) hi,
        div_self (sub_pos.2 hX').ne', sub_self, zero_mul, zero_add, one_mul]

private theorem near_example : distSq (spherePoint 6370997 (-1) 62) (spherePoint 6370997 1 62) ≤ 1 / 100 * 6370997 ^ 2 := by
  have h1 := pi_lt_d2
  have h0 := pi_pos
  refine (distSq_le _ _ _ _ _).trans (mul_le_mul_of_nonneg_right ?_ (by norm_num))
  norm_num [rad]
  nlinarith

/-- a quarter of the way, two degrees of longitude apart -/
example := C93_chord 6370997 (1 / 100) (1 / 4) (-1) 62 1 62 (by norm_num) (by norm_num) (by norm_num) (by norm_num) (by norm_num)
  near_example _ rfl

/-- all hypotheses of the row part are met, at the first row of a grid of two degrees -/
example (tok : TokIn Unit (FP ℝ) → Nat) : ∃ is lo la, mkGeo (singleGrid (fun _ => linearKernel) true none ([0, 10].map val) ([0, 8].map val))
      [.array (vals [[-1, 1], [-1, 1]]), .array (vals [[62, 62], [60, 60]])] = .ok is ∧
    interpolateGeo tok is [[0, 5].map val, [2, 4].map val] none () = .ok (lo, la) ∧
    ∃ f r, |f - 1 / 4| ≤ 1 / 100 / 50 ∧ OnArc 6370997 (spherePoint 6370997 (-1) 62) (spherePoint 6370997 1 62) f r ∧
      (axisDistSq r ≠ 0 → ∃ B, |B - geocentricLat r| ≤ 20 * (1 / 100) ∧ el (row la 0) 0 = val B) := by
  obtain ⟨is, lo, la, e1, e2, _, _, e5⟩ := C93_grid tok true none [0, 10] [0, 8] (by norm_num) (by norm_num) (by simp) (by simp)
    [[-1, 1], [-1, 1]] [[62, 62], [60, 60]] ⟨rfl, by simp⟩ ⟨rfl, by simp⟩ [0, 5] [2, 4] (by
      intro _
      constructor <;> intro y hy _ <;> simp only [List.mem_cons, List.not_mem_nil, or_false] at hy <;>
        rcases hy with rfl | rfl <;> norm_num)
  obtain ⟨f, r, _, _, k1, k2, k3⟩ := (e5 (1 / 100) 0 0 (by norm_num) (by norm_num) (by simp) (by simp)).1 0 0 (by simp) (by simp)
    rfl (by norm_num) (by norm_num) near_example
  exact ⟨is, lo, la, e1, e2, f, r, by norm_num at k1 ⊢; exact k1, k2, fun h => (k3 h).1⟩

/-- **Exactly uniform spacing is false**: a quarter of the way between longitudes 0 and 90 of the equator is reported at a longitude
other than 22.5 degrees. -/
theorem C93_uniform_false (R : ℝ) (hR : 0 < R) (p : ℝ × ℝ × ℝ) (hp : p = chordPoint (spherePoint R 0 0) (spherePoint R 90 0) (1 / 4)) :
    ∃ A, (xyz2lonlat (val R) (val (8 / 10)) true (pt p)).1 = val A ∧ A ≠ 22.5 := by
  have h90 : rad 90 = π / 2 := by unfold rad; ring
  have e : p = (3 * R / 4, R / 4, 0) := by
    rw [hp]
    simp only [chordPoint, spherePoint, h90, show rad 0 = 0 by unfold rad; ring, cos_zero, sin_zero, cos_pi_div_two, sin_pi_div_two]
    refine Prod.ext ?_ (Prod.ext ?_ ?_) <;> simp only <;> ring
  obtain ⟨A, ⟨_, _, hx, hy⟩, eA, _⟩ := C91_lon R (8 / 10) true p hR (by rw [e]; simp only [axisDistSq]; positivity)
    (by rw [e]; simp only [onAntimeridian]; intro h; linarith [h.2])
  refine ⟨A, eA, ?_⟩
  rintro rfl
  have c := cos_two_mul (rad 22.5)
  have s := sin_two_mul (rad 22.5)
  rw [show 2 * rad 22.5 = π / 4 by unfold rad; norm_num; ring] at c s
  rw [cos_pi_div_four] at c
  rw [sin_pi_div_four] at s
  have q := sin_sq_add_cos_sq (rad 22.5)
  have key : p.1 ^ 2 - p.2.1 ^ 2 = 2 * p.1 * p.2.1 := by
    rw [hx, hy]
    linear_combination √(axisDistSq p) ^ 2 * (s - c - q)
  rw [e] at key
  simp only at key
  nlinarith

example := C93_uniform_false 6370997 (by norm_num) _ rfl

end Verif.Props
