import Verif.Proofs.FlPresets
import Verif.Proofs.GeoErr
import Verif.Proofs.FlLin
import Verif.Props.FlGeoGrid
import Verif.Props.PresetsValue

/-!
# Rounding errors of the interpolation along the tie columns
-/

set_option linter.unusedSectionVars false

namespace Verif.Presets
open Verif Verif.Interpolator Verif.Spec Verif.Props Verif.Err Verif.Grid

variable {r : Rounding}

/-! ### extrapolation -/

/-- the extrapolated value as computed -/
noncomputable def flEx (r : Rounding) (p0 p1 d0 d1 x : ℝ) : ℝ :=
  r.rnd (d1 + r.rnd (r.rnd (r.rnd (x - p1) / r.rnd (p0 - p1)) * r.rnd (d0 - d1)))

theorem extrapolated_fl {p0 p1 : ℝ} (h : p0 < p1) (d0 d1 x : ℝ) :
    extrapolated (.val p0) (.val p1) (.val d0) (.val d1) (.val x) = (.val (flEx r p0 p1 d0 d1 x) : Fl r) := by
  have h1 : r.rnd (p0 - p1) ≠ 0 := (r.rnd_neg' (by linarith)).ne
  unfold extrapolated flEx
  rw [Fl.lit_eq, show ((10 : Nat) : ℝ) / 10 ^ 1 = 1 by norm_num, r.rnd_one]
  simp only [Fl.val_sub, Fl.val_mul, one_mul, r.rnd_rep (r.rep (p0 - p1)), Fl.val_div_of_ne _ h1, Fl.val_add]

theorem flEx_rep (p0 p1 d0 d1 x : ℝ) : Rep r.p (flEx r p0 p1 d0 d1 x) := r.rep _

/-- the error of one extrapolation from the positions as they are -/
theorem flEx_err (hu : r.u ≤ 1 / 65536) {p0 p1 d0 d1 x M w : ℝ} (hw : w = (x - p1) / (p0 - p1)) (w1 : |w| + |1 - w| ≤ 13 / 5)
    (h0 : |d0| ≤ M) (h1 : |d1| ≤ M) : |flEx r p0 p1 d0 d1 x - (d1 + w * (d0 - d1))| ≤ 21 * r.u * M := by
  have u0 := r.u_pos
  have hM : 0 ≤ M := (abs_nonneg _).trans h0
  have wle : |w| ≤ 9 / 5 := by
    have : |w| ≤ |1 - w| + 1 := by
      have := abs_sub_abs_le_abs_sub w 1
      rw [abs_one, abs_sub_comm w 1] at this
      linarith
    linarith
  have uu : r.u * r.u ≤ 1 / 65536 * r.u := mul_le_mul_of_nonneg_right hu u0.le
  have a1 : Rel (2.001 * r.u) (r.rnd (x - p1) / r.rnd (p0 - p1)) w := by
    rw [hw]
    refine ((rel_rnd le_rfl (x - p1)).div (rel_rnd le_rfl (p0 - p1)) u0.le (by linarith)).mono ?_
    rw [div_le_iff₀ (by linarith)]
    nlinarith
  have a2 : Rel (3.002 * r.u) (r.rnd (r.rnd (x - p1) / r.rnd (p0 - p1))) w := (a1.rnd le_rfl).mono (by nlinarith)
  have a3 : Rel (4.003 * r.u) (r.rnd (r.rnd (x - p1) / r.rnd (p0 - p1)) * r.rnd (d0 - d1)) (w * (d0 - d1)) :=
    (a2.mul (rel_rnd le_rfl (d0 - d1)) (by positivity)).mono (by nlinarith)
  have a4 : Rel (5.004 * r.u) (r.rnd (r.rnd (r.rnd (x - p1) / r.rnd (p0 - p1)) * r.rnd (d0 - d1))) (w * (d0 - d1)) :=
    (a3.rnd le_rfl).mono (by nlinarith)
  unfold flEx
  obtain ⟨m, em⟩ : ∃ m, m = r.rnd (r.rnd (r.rnd (x - p1) / r.rnd (p0 - p1)) * r.rnd (d0 - d1)) := ⟨_, rfl⟩
  rw [← em] at a4 ⊢
  have hD : |d0 - d1| ≤ 2 * M := (abs_sub _ _).trans (by linarith)
  have hp : |w * (d0 - d1)| ≤ 3.6 * M := by
    rw [abs_mul]
    have := mul_le_mul wle hD (abs_nonneg _) (by norm_num)
    linarith
  have hm : |m - w * (d0 - d1)| ≤ 18.02 * r.u * M := by
    refine le_trans a4 ?_
    have := mul_le_mul_of_nonneg_left hp (show 0 ≤ 5.004 * r.u by positivity)
    nlinarith [mul_nonneg u0.le hM]
  have hv : |d1 + w * (d0 - d1)| ≤ 13 / 5 * M := by
    have e : d1 + w * (d0 - d1) = w * d0 + (1 - w) * d1 := by ring
    rw [e]
    refine (abs_add_le _ _).trans ?_
    rw [abs_mul, abs_mul]
    have b1 := mul_le_mul_of_nonneg_left h0 (abs_nonneg w)
    have b2 := mul_le_mul_of_nonneg_left h1 (abs_nonneg (1 - w))
    have b3 := mul_le_mul_of_nonneg_right w1 hM
    nlinarith
  have huM : 0 ≤ r.u * M := mul_nonneg u0.le hM
  have huM2 : r.u * M ≤ 1 / 65536 * M := mul_le_mul_of_nonneg_right hu hM
  have hs : |d1 + m| ≤ 2.7 * M := by
    have e : d1 + m = (d1 + w * (d0 - d1)) + (m - w * (d0 - d1)) := by ring
    rw [e]
    refine (abs_add_le _ _).trans ?_
    nlinarith
  have hr := r.abs_rnd_sub_le_u (d1 + m)
  have hr2 := mul_le_mul_of_nonneg_left hs u0.le
  have e : r.rnd (d1 + m) - (d1 + w * (d0 - d1)) = (r.rnd (d1 + m) - (d1 + m)) + (m - w * (d0 - d1)) := by ring
  rw [e]
  refine (abs_add_le _ _).trans ?_
  nlinarith

/-- an extrapolated value is bounded -/
theorem flEx_bound (hu : r.u ≤ 1 / 65536) {p0 p1 d0 d1 x M w : ℝ} (hw : w = (x - p1) / (p0 - p1)) (w1 : |w| + |1 - w| ≤ 13 / 5)
    (h0 : |d0| ≤ M) (h1 : |d1| ≤ M) : |flEx r p0 p1 d0 d1 x| ≤ 2.61 * M := by
  have hM : 0 ≤ M := (abs_nonneg _).trans h0
  have a := flEx_err hu hw w1 h0 h1
  have hv : |d1 + w * (d0 - d1)| ≤ 13 / 5 * M := by
    have e : d1 + w * (d0 - d1) = w * d0 + (1 - w) * d1 := by ring
    rw [e]
    refine (abs_add_le _ _).trans ?_
    rw [abs_mul, abs_mul]
    have b1 := mul_le_mul_of_nonneg_left h0 (abs_nonneg w)
    have b2 := mul_le_mul_of_nonneg_left h1 (abs_nonneg (1 - w))
    have b3 := mul_le_mul_of_nonneg_right w1 hM
    nlinarith
  have huM2 : r.u * M ≤ 1 / 65536 * M := mul_le_mul_of_nonneg_right hu hM
  have e : flEx r p0 p1 d0 d1 x = (flEx r p0 p1 d0 d1 x - (d1 + w * (d0 - d1))) + (d1 + w * (d0 - d1)) := by ring
  rw [e]
  refine (abs_add_le _ _).trans ?_
  linarith

/-- weights from perturbed positions one unit apart -/
theorem weight_pert {p0 p1 x p0' p1' x' η w W : ℝ} (h1 : p1 = p0 + 1) (hη : η ≤ 1 / 128) (e0 : |p0' - p0| ≤ η) (e1 : |p1' - p1| ≤ η)
    (ex : |x' - x| ≤ η) (hw : w = (x - p1) / (p0 - p1)) (hW : |w| + |1 - w| ≤ W) (W2 : W ≤ 5 / 2) :
    ∃ w', w' = (x' - p1') / (p0' - p1') ∧ |w' - w| ≤ η * 4 ∧ |w'| + |1 - w'| ≤ 13 / 5 := by
  have hη0 : 0 ≤ η := (abs_nonneg _).trans e0
  have a0 := abs_le.1 e0
  have a1 := abs_le.1 e1
  have hne : p0' - p1' ≠ 0 := by
    have : p0' - p1' < 0 := by linarith
    exact this.ne
  have hne2 : p0 - p1 ≠ 0 := by rw [h1]; norm_num
  obtain ⟨w', ew⟩ : ∃ w', w' = (x' - p1') / (p0' - p1') := ⟨_, rfl⟩
  refine ⟨w', ew, ?_⟩
  have m1 : w' * (p0' - p1') = x' - p1' := by rw [ew]; field_simp
  have m2 : w * (p0 - p1) = x - p1 := by rw [hw]; field_simp
  have id : w' - w = w' * (p0' - p0) - (x' - x) + (1 - w') * (p1' - p1) := by
    rw [h1] at m2 ⊢
    linear_combination (-1 : ℝ) * m1 + m2 * (1 : ℝ) + 0 * m1
  have b : |w' - w| ≤ η * (|w'| + |1 - w'| + 1) := by
    rw [id]
    have t1 := abs_add_le (w' * (p0' - p0) - (x' - x)) ((1 - w') * (p1' - p1))
    have t2 := abs_sub (w' * (p0' - p0)) (x' - x)
    rw [abs_mul] at t1 t2
    have t3 := mul_le_mul_of_nonneg_left e0 (abs_nonneg w')
    have t4 := mul_le_mul_of_nonneg_left e1 (abs_nonneg (1 - w'))
    nlinarith
  have c1 : |w'| ≤ |w| + |w' - w| := by
    have := abs_add_le w (w' - w)
    rwa [add_sub_cancel] at this
  have c2 : |1 - w'| ≤ |1 - w| + |w' - w| := by
    have := abs_sub (1 - w) (w' - w)
    rwa [show 1 - w - (w' - w) = 1 - w' by ring] at this
  have d : |w'| + |1 - w'| ≤ 13 / 5 := by
    obtain ⟨Z, eZ⟩ : ∃ Z, Z = |w'| + |1 - w'| := ⟨_, rfl⟩
    have hZ : 0 ≤ Z := by rw [eZ]; positivity
    rw [← eZ] at b ⊢
    have : η * (Z + 1) ≤ 1 / 128 * (Z + 1) := mul_le_mul_of_nonneg_right hη (by linarith)
    have : Z ≤ 5 / 2 + 2 * (1 / 128 * (Z + 1)) := by linarith
    linarith
  refine ⟨b.trans (mul_le_mul_of_nonneg_left (by linarith) hη0), d⟩

/-- the extrapolation at perturbed positions -/
theorem flEx_line (hu : r.u ≤ 1 / 65536) {p0 p1 x p0' p1' x' d0 d1 η w W M : ℝ} (h1 : p1 = p0 + 1) (hη : η ≤ 1 / 128)
    (e0 : |p0' - p0| ≤ η) (e1 : |p1' - p1| ≤ η) (ex : |x' - x| ≤ η) (hw : w = (x - p1) / (p0 - p1)) (hW : |w| + |1 - w| ≤ W)
    (W2 : W ≤ 5 / 2) (m0 : |d0| ≤ M) (m1 : |d1| ≤ M) :
    |flEx r p0' p1' d0 d1 x' - lineThrough p0 d0 p1 d1 x| ≤ 21 * r.u * M + 4 * η * |d1 - d0| ∧
      |flEx r p0' p1' d0 d1 x'| ≤ 2.61 * M := by
  obtain ⟨w', ew, b1, b2⟩ := weight_pert h1 hη e0 e1 ex hw hW W2
  refine ⟨?_, flEx_bound hu ew b2 m0 m1⟩
  have a := flEx_err hu ew b2 m0 m1
  have hl : lineThrough p0 d0 p1 d1 x = d1 + w * (d0 - d1) := by
    rw [hw, h1]
    unfold lineThrough
    have : p0 - (p0 + 1) = -1 := by ring
    rw [this]
    have : p0 + 1 - p0 = 1 := by ring
    rw [this]
    ring
  rw [hl]
  have e : flEx r p0' p1' d0 d1 x' - (d1 + w * (d0 - d1))
      = (flEx r p0' p1' d0 d1 x' - (d1 + w' * (d0 - d1))) + (w' - w) * (d0 - d1) := by ring
  rw [e]
  refine (abs_add_le _ _).trans ?_
  rw [abs_mul, abs_sub_comm d0 d1]
  have := mul_le_mul_of_nonneg_right b1 (abs_nonneg (d1 - d0))
  linarith

/-! ### a segment -/

/-- linear interpolation at perturbed positions between values near a line of slope at most `D` -/
theorem segment_near {a b x a' b' x' va vb c0 σ D e η : ℝ} (hab : a' < b') (h1 : a' ≤ x') (h2 : x' ≤ b')
    (ea : |a' - a| ≤ η) (eb : |b' - b| ≤ η) (ex : |x' - x| ≤ η) (hσ : |σ| ≤ D)
    (ha : |va - (c0 + σ * a)| ≤ e) (hb : |vb - (c0 + σ * b)| ≤ e) :
    |lineThrough a' va b' vb x' - (c0 + σ * x)| ≤ e + 2 * η * D := by
  obtain ⟨t, et⟩ : ∃ t, t = (x' - a') / (b' - a') := ⟨_, rfl⟩
  have hpos : 0 < b' - a' := by linarith
  have t0 : 0 ≤ t := by rw [et]; exact div_nonneg (by linarith) hpos.le
  have t1 : t ≤ 1 := by rw [et, div_le_one hpos]; linarith
  have m1 : t * (b' - a') = x' - a' := by rw [et]; field_simp
  have hl : lineThrough a' va b' vb x' = (1 - t) * va + t * vb := by
    unfold lineThrough
    rw [mul_div_right_comm, ← et]; ring
  rw [hl]
  have id : (1 - t) * va + t * vb - (c0 + σ * x)
      = ((1 - t) * (va - (c0 + σ * a)) + t * (vb - (c0 + σ * b)))
        + σ * ((x' - x) - ((1 - t) * (a' - a) + t * (b' - b))) := by
    linear_combination σ * m1
  rw [id]
  have k1 := abs_convex_le t0 t1 ha hb
  have k2 := abs_convex_le t0 t1 ea eb
  refine (abs_add_le _ _).trans (add_le_add k1 ?_)
  rw [abs_mul]
  have k3 : |(x' - x) - ((1 - t) * (a' - a) + t * (b' - b))| ≤ 2 * η := (abs_sub _ _).trans (by linarith)
  have := mul_le_mul hσ k3 (abs_nonneg _) ((abs_nonneg _).trans hσ)
  linarith

/-! ### the filled arrays -/

/-- What the accuracy needs to know about a grid: tie points one unit apart, edges at most half a row and three quarters of
a column beyond them, row positions exact up to `η`. -/
structure Unit1 (G : ScanGrid ℝ) (r : Rounding) (s : Nat) (η : ℝ) : Prop where
  p1 : ∀ i, G.p (i + 1) = G.p i + 1
  q1 : ∀ i, G.q (i + 1) = G.q i + 1
  h0 : G.p 0 - G.h 0 ≤ 1 / 2
  hl : G.h (G.k - 1) - G.p (G.t - 1) ≤ 1 / 2
  g0 : G.q 0 - G.g 0 ≤ 1 / 2
  gl : G.g (G.N - 1) - G.q (G.n - 1) ≤ 3 / 4
  ep : ∀ i < s * G.t, |r.rnd (G.p i) - G.p i| ≤ η
  eh : ∀ i < s * G.k, |r.rnd (G.h i) - G.h i| ≤ η
  eq : ∀ i < G.n, |r.rnd (G.q i) - G.q i| ≤ 1 / 128
  eg : ∀ i < G.N, |r.rnd (G.g i) - G.g i| ≤ 1 / 128
  hη : η ≤ 1 / 128
  hu : r.u ≤ 1 / 65536

/-- one scan of tie values with its two extrapolated rows, as numbers -/
noncomputable def rBlock (G : ScanGrid ℝ) (r : Rounding) (V : List (List ℝ)) (c : Nat) : List (List ℝ) :=
  [List.zipWith (fun a b => flEx r (r.rnd (G.p (c * G.t + 0))) (r.rnd (G.p (c * G.t + 1))) a b (r.rnd (G.h (c * G.k))))
      (V.getD (c * G.t + 0) []) (V.getD (c * G.t + 1) [])]
    ++ (List.range G.t).map (fun j => V.getD (c * G.t + j) [])
    ++ [List.zipWith (fun a b => flEx r (r.rnd (G.p (c * G.t + (G.t - 2)))) (r.rnd (G.p (c * G.t + (G.t - 1)))) a b
        (r.rnd (G.h ((c + 1) * G.k - 1)))) (V.getD (c * G.t + (G.t - 2)) []) (V.getD (c * G.t + (G.t - 1)) [])]

/-- the tie values after the row fill, as numbers -/
noncomputable def rScan (G : ScanGrid ℝ) (r : Rounding) (s : Nat) (V : List (List ℝ)) : List (List ℝ) :=
  (List.range s).flatMap (rBlock G r V)

/-- a row after the column fill, as numbers -/
noncomputable def rCol (G : ScanGrid ℝ) (r : Rounding) (x : List ℝ) : List ℝ :=
  withEdges (needFirst (G.fl r 0 [])) (needLast (G.fl r 0 []))
    (flEx r (r.rnd (G.q 0)) (r.rnd (G.q 1)) (x.getD 0 0) (x.getD 1 0) (r.rnd (G.g 0)))
    (flEx r (r.rnd (G.q (G.n - 2))) (r.rnd (G.q (G.n - 1))) (x.getD (G.n - 2) 0) (x.getD (G.n - 1) 0) (r.rnd (G.g (G.N - 1)))) x

variable {G : ScanGrid ℝ} {s : Nat} {η : ℝ} {V : List (List ℝ)}

theorem rnd_lt {x y : ℝ} {η : ℝ} (hη : η ≤ 1 / 128) (h : y = x + 1) (h1 : |r.rnd x - x| ≤ η) (h2 : |r.rnd y - y| ≤ η) :
    r.rnd x < r.rnd y := by
  have := abs_le.1 h1
  have := abs_le.1 h2
  linarith

theorem row_flvals (V : List (List ℝ)) (i : Nat) : row (flvals V : Mat (Fl r)) i = (V.getD i []).map Fl.val := by
  unfold row flvals
  rw [List.getD_eq_getElem?_getD, List.getD_eq_getElem?_getD, List.getElem?_map]
  cases V[i]? <;> rfl

theorem last_row {c : Nat} (hk : 1 ≤ G.k) : (c + 1) * G.k - 1 = c * G.k + (G.k - 1) := by
  rw [Nat.add_mul]; omega

theorem flScan_real (H : Unit1 G r s η) (V : List (List ℝ)) : flScan G r s (flvals V) = flvals (rScan G r s V) := by
  have ht := G.ht
  have hk := G.hk
  unfold flScan rScan flvals
  rw [List.map_flatMap]
  refine List.flatMap_congr (fun c hc => ?_)
  have hc' := List.mem_range.mp hc
  have hcs : (c + 1) * G.t ≤ s * G.t := Nat.mul_le_mul_right _ hc'
  have hck : (c + 1) * G.k ≤ s * G.k := Nat.mul_le_mul_right _ hc'
  have hlr := last_row (G := G) (c := c) hk
  rw [Nat.add_mul] at hcs hck
  have hsel : ∀ j < G.t, ((List.range G.t).map (fun j => c * G.t + j)).getD j 0 = c * G.t + j := by
    intro j hj; simp [hj]
  have hzip : ∀ i j x : Nat, i + 1 = j → j < G.t → x < s * G.k →
      List.zipWith (fun a b => extrapolated (el (fpos r G.p (s * G.t)) (c * G.t + i)) (el (fpos r G.p (s * G.t)) (c * G.t + j)) a b
        (el (fpos r G.h (s * G.k)) x)) (row (V.map (List.map Fl.val)) (c * G.t + i)) (row (V.map (List.map Fl.val)) (c * G.t + j))
      = (List.zipWith (fun a b => flEx r (r.rnd (G.p (c * G.t + i))) (r.rnd (G.p (c * G.t + j))) a b (r.rnd (G.h x)))
          (V.getD (c * G.t + i) []) (V.getD (c * G.t + j) [])).map Fl.val := by
    intro i j x hij hj hx
    have e1 := row_flvals (r := r) V (c * G.t + i)
    have e2 := row_flvals (r := r) V (c * G.t + j)
    unfold flvals at e1 e2
    rw [e1, e2, fpos_el G.p (by omega), fpos_el G.p (by omega), fpos_el G.h hx, List.zipWith_map, List.map_zipWith]
    have hlt : r.rnd (G.p (c * G.t + i)) < r.rnd (G.p (c * G.t + j)) :=
      rnd_lt H.hη (by rw [← hij, ← Nat.add_assoc]; exact H.p1 _) (H.ep _ (by omega)) (H.ep _ (by omega))
    congr 1
    funext a b
    exact extrapolated_fl hlt a b _
  unfold bracketed rBlock
  simp only [List.length_map, List.length_range, hsel 0 (by omega), hsel 1 (by omega), hsel (G.t - 2) (by omega),
    hsel (G.t - 1) (by omega), List.map_append, List.map_cons, List.map_nil, List.map_map]
  rw [hzip 0 1 _ rfl (by omega) (by omega), hzip (G.t - 2) (G.t - 1) _ (by omega) (by omega) (by omega)]
  congr 2
  refine List.map_congr_left (fun j _ => ?_)
  exact row_flvals V _

theorem rBlock_length (c : Nat) : (rBlock G r V c).length = G.t + 2 := by simp [rBlock]

theorem rScan_get {c i : Nat} (hc : c < s) (hi : i < G.t + 2) :
    (rScan G r s V).getD (c * (G.t + 2) + i) [] = (rBlock G r V c).getD i [] := by
  unfold rScan
  rw [List.flatMap_def, getD_flatten (t := G.t + 2) (by
    intro m hm
    obtain ⟨c', _, rfl⟩ := List.mem_map.mp hm
    exact rBlock_length c') [] (by simpa using hc) hi, getD_map_lt _ (by simpa using hc) [] 0]
  congr 2
  simp [hc]

theorem rBlock_mid (c : Nat) {i : Nat} (hi : i < G.t) : (rBlock G r V c).getD (i + 1) [] = V.getD (c * G.t + i) [] := by
  unfold rBlock
  rw [getD_mid _ _ _ _ (by simpa using hi)]
  simp [hi]

theorem mem_row (hV : Shape (s * G.t) G.n V) {i : Nat} (hi : i < s * G.t) : V.getD i [] ∈ V := by
  have hlt : i < V.length := by rw [hV.1]; exact hi
  rw [getD_of_lt _ _ hlt]; exact List.getElem_mem _

theorem row_len (hV : Shape (s * G.t) G.n V) {i : Nat} (hi : i < s * G.t) : (V.getD i []).length = G.n := hV.2 _ (mem_row hV hi)

theorem mem_el {l : List ℝ} {b : Nat} (hb : b < l.length) : l.getD b 0 ∈ l := by
  rw [getD_of_lt _ _ hb]; exact List.getElem_mem _

variable {M : ℝ}

/-- the weights of the first and the last row of a scan -/
theorem row_weights (H : Unit1 G r s η) {c : Nat} (hc : c < s) :
    (∃ w, w = (G.h (c * G.k) - G.p (c * G.t + 1)) / (G.p (c * G.t + 0) - G.p (c * G.t + 1)) ∧ |w| + |1 - w| ≤ 2) ∧
    ∃ w, w = (G.h ((c + 1) * G.k - 1) - G.p (c * G.t + (G.t - 1))) / (G.p (c * G.t + (G.t - 2)) - G.p (c * G.t + (G.t - 1))) ∧
      |w| + |1 - w| ≤ 2 := by
  have ht := G.ht
  have hk := G.hk
  constructor
  · refine ⟨_, rfl, ?_⟩
    have e1 := H.p1 (c * G.t + 0)
    have e2 := G.hhs c 0
    have e3 := G.hps c 0
    have h0 := H.h0
    have h1 := G.hfirst
    simp only [Nat.add_zero] at e1 e2 e3 ⊢
    rw [e1, show G.p (c * G.t) - (G.p (c * G.t) + 1) = -1 by ring, e2, e3, div_neg, div_one]
    have d0 : 0 ≤ -((↑(c * G.t) : ℝ) + G.h 0 - (↑(c * G.t) + G.p 0 + 1)) := by linarith
    have d1 : 1 - -((↑(c * G.t) : ℝ) + G.h 0 - (↑(c * G.t) + G.p 0 + 1)) ≤ 0 := by linarith
    rw [abs_of_nonneg d0, abs_of_nonpos d1]
    linarith
  · refine ⟨_, rfl, ?_⟩
    have e1 := H.p1 (c * G.t + (G.t - 2))
    have e2 := G.hhs c (G.k - 1)
    have e3 := G.hps c (G.t - 1)
    have h0 := H.hl
    have h1 := G.hlast
    rw [Nat.add_assoc, show G.t - 2 + 1 = G.t - 1 by omega] at e1
    rw [last_row hk, e1, show G.p (c * G.t + (G.t - 2)) - (G.p (c * G.t + (G.t - 2)) + 1) = -1 by ring, ← e1, e2, e3, div_neg, div_one]
    have d0 : -((↑(c * G.t) : ℝ) + G.h (G.k - 1) - (↑(c * G.t) + G.p (G.t - 1))) ≤ 0 := by linarith
    have d1 : 0 ≤ 1 - -((↑(c * G.t) : ℝ) + G.h (G.k - 1) - (↑(c * G.t) + G.p (G.t - 1))) := by linarith
    rw [abs_of_nonpos d0, abs_of_nonneg d1]
    linarith

/-- the extrapolated rows -/
theorem rBlock_ends (H : Unit1 G r s η) (hV : Shape (s * G.t) G.n V) (hM : ∀ x ∈ V, ∀ y ∈ x, |y| ≤ M) {c b : Nat} (hc : c < s)
    (hb : b < G.n) :
    (let d0 := (V.getD (c * G.t + 0) []).getD b 0
     let d1 := (V.getD (c * G.t + 1) []).getD b 0
     |((rBlock G r V c).getD 0 []).getD b 0 - lineThrough (G.p (c * G.t + 0)) d0 (G.p (c * G.t + 1)) d1 (G.h (c * G.k))|
       ≤ 21 * r.u * M + 4 * η * |d1 - d0|) ∧
    (let d0 := (V.getD (c * G.t + (G.t - 2)) []).getD b 0
     let d1 := (V.getD (c * G.t + (G.t - 1)) []).getD b 0
     |((rBlock G r V c).getD (G.t + 1) []).getD b 0
         - lineThrough (G.p (c * G.t + (G.t - 2))) d0 (G.p (c * G.t + (G.t - 1))) d1 (G.h ((c + 1) * G.k - 1))|
       ≤ 21 * r.u * M + 4 * η * |d1 - d0|) := by
  have ht := G.ht
  have hk := G.hk
  have hcs : (c + 1) * G.t ≤ s * G.t := Nat.mul_le_mul_right _ hc
  have hck : (c + 1) * G.k ≤ s * G.k := Nat.mul_le_mul_right _ hc
  have hlr := last_row (G := G) (c := c) hk
  rw [Nat.add_mul] at hcs hck
  obtain ⟨⟨w, ew, hw⟩, w', ew', hw'⟩ := row_weights H hc
  have hm : ∀ i < s * G.t, |(V.getD i []).getD b 0| ≤ M := fun i hi =>
    hM _ (mem_row hV hi) _ (mem_el (by rw [row_len hV hi]; exact hb))
  have z : ∀ (f : ℝ → ℝ → ℝ) (i j : Nat), i < s * G.t → j < s * G.t →
      (List.zipWith f (V.getD i []) (V.getD j [])).getD b 0 = f ((V.getD i []).getD b 0) ((V.getD j []).getD b 0) := by
    intro f i j hi hj
    exact getD_zipWith f (by rw [row_len hV hi]; exact hb) (by rw [row_len hV hj]; exact hb) 0 0 0
  constructor
  · show |(List.zipWith _ _ _).getD b 0 - _| ≤ _
    rw [z _ _ _ (by omega) (by omega)]
    exact (flEx_line H.hu (H.p1 _) H.hη (H.ep _ (by omega)) (H.ep _ (by omega)) (H.eh _ (by omega)) ew hw (by norm_num)
      (hm _ (by omega)) (hm _ (by omega))).1
  · have e : (rBlock G r V c).getD (G.t + 1) [] = List.zipWith (fun a b => flEx r (r.rnd (G.p (c * G.t + (G.t - 2))))
        (r.rnd (G.p (c * G.t + (G.t - 1)))) a b (r.rnd (G.h ((c + 1) * G.k - 1)))) (V.getD (c * G.t + (G.t - 2)) [])
        (V.getD (c * G.t + (G.t - 1)) []) := by
      unfold rBlock
      have := getD_end (List.zipWith (fun a b => flEx r (r.rnd (G.p (c * G.t + 0))) (r.rnd (G.p (c * G.t + 1))) a b
        (r.rnd (G.h (c * G.k)))) (V.getD (c * G.t + 0) []) (V.getD (c * G.t + 1) [])) (List.zipWith (fun a b =>
        flEx r (r.rnd (G.p (c * G.t + (G.t - 2)))) (r.rnd (G.p (c * G.t + (G.t - 1)))) a b (r.rnd (G.h ((c + 1) * G.k - 1))))
        (V.getD (c * G.t + (G.t - 2)) []) (V.getD (c * G.t + (G.t - 1)) [])) ([] : List ℝ)
        ((List.range G.t).map (fun j => V.getD (c * G.t + j) []))
      rwa [List.length_map, List.length_range] at this
    simp only
    rw [e, z _ _ _ (by omega) (by omega)]
    have hp := H.p1 (c * G.t + (G.t - 2))
    rw [Nat.add_assoc, show G.t - 2 + 1 = G.t - 1 by omega] at hp
    exact (flEx_line H.hu hp H.hη (H.ep _ (by omega)) (H.ep _ (by omega)) (H.eh _ (by omega)) ew' hw' (by norm_num)
      (hm _ (by omega)) (hm _ (by omega))).1

/-- the rows after the row fill: width, floating point numbers, bound -/
theorem rScan_mem (H : Unit1 G r s η) (hV : Shape (s * G.t) G.n V) (hR : ∀ x ∈ V, ∀ y ∈ x, Rep r.p y)
    (hM : ∀ x ∈ V, ∀ y ∈ x, |y| ≤ M) : ∀ x ∈ rScan G r s V, x.length = G.n ∧ ∀ y ∈ x, Rep r.p y ∧ |y| ≤ 2.61 * M := by
  have ht := G.ht
  have hk := G.hk
  intro x hx
  obtain ⟨c, hc, hx⟩ := List.mem_flatMap.mp hx
  have hc' := List.mem_range.mp hc
  have hcs : (c + 1) * G.t ≤ s * G.t := Nat.mul_le_mul_right _ hc'
  have hck : (c + 1) * G.k ≤ s * G.k := Nat.mul_le_mul_right _ hc'
  have hlr := last_row (G := G) (c := c) hk
  rw [Nat.add_mul] at hcs hck
  obtain ⟨⟨w, ew, hw⟩, w', ew', hw'⟩ := row_weights H hc'
  unfold rBlock at hx
  simp only [List.mem_append, List.mem_singleton] at hx
  rcases hx with (rfl | hx) | rfl
  · refine ⟨by rw [List.length_zipWith, row_len hV (by omega), row_len hV (by omega), Nat.min_self], ?_⟩
    intro y hy
    obtain ⟨a, ha, b, hb, rfl⟩ := mem_zipWith hy
    exact ⟨flEx_rep _ _ _ _ _, (flEx_line H.hu (H.p1 _) H.hη (H.ep _ (by omega)) (H.ep _ (by omega)) (H.eh _ (by omega)) ew hw
      (by norm_num) (hM _ (mem_row hV (by omega)) _ ha) (hM _ (mem_row hV (by omega)) _ hb)).2⟩
  · obtain ⟨j, hj, rfl⟩ := List.mem_map.mp hx
    have hj' := List.mem_range.mp hj
    have hm := mem_row hV (i := c * G.t + j) (by omega)
    refine ⟨hV.2 _ hm, fun y hy => ⟨hR _ hm _ hy, ?_⟩⟩
    have := hM _ hm _ hy
    have := abs_nonneg y
    linarith
  · have hp := H.p1 (c * G.t + (G.t - 2))
    rw [Nat.add_assoc, show G.t - 2 + 1 = G.t - 1 by omega] at hp
    refine ⟨by rw [List.length_zipWith, row_len hV (by omega), row_len hV (by omega), Nat.min_self], ?_⟩
    intro y hy
    obtain ⟨a, ha, b, hb, rfl⟩ := mem_zipWith hy
    exact ⟨flEx_rep _ _ _ _ _, (flEx_line H.hu hp H.hη (H.ep _ (by omega)) (H.ep _ (by omega)) (H.eh _ (by omega)) ew' hw'
      (by norm_num) (hM _ (mem_row hV (by omega)) _ ha) (hM _ (mem_row hV (by omega)) _ hb)).2⟩

theorem rScan_length : (rScan G r s V).length = s * (G.t + 2) := by
  unfold rScan
  rw [List.length_flatMap]
  simp [rBlock]

/-! ### columns -/

theorem el_map_fl {x : List ℝ} {b : Nat} (h : b < x.length) : el (x.map (Fl.val : ℝ → Fl r)) b = .val (x.getD b 0) := by
  simp [el, h]

theorem withEdges_map {β γ : Type} (f : β → γ) (x y : Bool) (a b : β) (l : List β) :
    (withEdges x y a b l).map f = withEdges x y (f a) (f b) (l.map f) := by
  unfold withEdges
  cases x <;> cases y <;> simp

theorem flCol_real (H : Unit1 G r s η) {x : List ℝ} (hx : x.length = G.n) :
    flCol G r (x.map Fl.val) = (rCol G r x).map Fl.val := by
  have hn := G.hn
  have hN := G.hN
  unfold flCol rCol fillRow
  rw [withEdges_map]
  have hlt : ∀ i j, i + 1 = j → j < G.n → r.rnd (G.q i) < r.rnd (G.q j) := fun i j hij hj =>
    rnd_lt (η := 1 / 128) le_rfl (by rw [← hij]; exact H.q1 _) (H.eq _ (by omega)) (H.eq _ (by omega))
  have e1 : el (G.fl r 0 []).colIdx 0 = .val (r.rnd (G.q 0)) := fpos_el G.q (by omega)
  have e2 : el (G.fl r 0 []).colIdx 1 = .val (r.rnd (G.q 1)) := fpos_el G.q (by omega)
  have e3 : el (G.fl r 0 []).hcolIdx 0 = .val (r.rnd (G.g 0)) := fpos_el G.g (by omega)
  have e4 : elEnd (G.fl r 0 []).colIdx 2 = .val (r.rnd (G.q (G.n - 2))) := elEnd_fpos G.q (by omega) (by omega)
  have e5 : elEnd (G.fl r 0 []).colIdx 1 = .val (r.rnd (G.q (G.n - 1))) := elEnd_fpos G.q (by omega) (by omega)
  have e6 : elEnd (G.fl r 0 []).hcolIdx 1 = .val (r.rnd (G.g (G.N - 1))) := elEnd_fpos G.g (by omega) (by omega)
  have e7 : ∀ k, 1 ≤ k → k ≤ G.n → elEnd (x.map (Fl.val : ℝ → Fl r)) k = .val (x.getD (G.n - k) 0) := by
    intro k h1 h2
    unfold elEnd
    rw [List.length_map, hx]
    exact el_map_fl (by omega)
  rw [e1, e2, e3, e4, e5, e6, e7 2 (by omega) (by omega), e7 1 (by omega) (by omega), el_map_fl (by omega), el_map_fl (by omega),
    extrapolated_fl (hlt 0 1 rfl (by omega)), extrapolated_fl (hlt (G.n - 2) (G.n - 1) (by omega) (by omega))]

/-- the row after the column fill: floating point numbers, bound -/
theorem rCol_mem (H : Unit1 G r s η) {x : List ℝ} (hx : x.length = G.n) (hR : ∀ y ∈ x, Rep r.p y) (hM : ∀ y ∈ x, |y| ≤ M) :
    ∀ y ∈ rCol G r x, Rep r.p y ∧ |y| ≤ 2.61 * M := by
  have hn := G.hn
  have hN := G.hN
  intro y hy
  have hel : ∀ b < G.n, |x.getD b 0| ≤ M := fun b hb => hM _ (mem_el (by omega))
  rcases withEdges_mem hy with rfl | rfl | h
  · refine ⟨flEx_rep _ _ _ _ _, ?_⟩
    have w : ∃ w, w = (G.g 0 - G.q 1) / (G.q 0 - G.q 1) ∧ |w| + |1 - w| ≤ 5 / 2 := by
      refine ⟨_, rfl, ?_⟩
      have e1 := H.q1 0
      have h0 := H.g0
      have h1 := G.hq0
      rw [Nat.zero_add] at e1
      rw [e1, show G.q 0 - (G.q 0 + 1) = -1 by ring, div_neg, div_one, abs_of_nonneg (by linarith), abs_of_nonpos (by linarith)]
      linarith
    obtain ⟨w, ew, hw⟩ := w
    exact (flEx_line H.hu (H.q1 0) le_rfl (H.eq _ (by omega)) (H.eq _ (by omega)) (H.eg _ (by omega)) ew hw (by norm_num)
      (hel _ (by omega)) (hel _ (by omega))).2
  · refine ⟨flEx_rep _ _ _ _ _, ?_⟩
    have hq := H.q1 (G.n - 2)
    rw [show G.n - 2 + 1 = G.n - 1 by omega] at hq
    have w : ∃ w, w = (G.g (G.N - 1) - G.q (G.n - 1)) / (G.q (G.n - 2) - G.q (G.n - 1)) ∧ |w| + |1 - w| ≤ 5 / 2 := by
      refine ⟨_, rfl, ?_⟩
      have h0 := H.gl
      have h1 := G.hq1
      rw [hq, show G.q (G.n - 2) - (G.q (G.n - 2) + 1) = -1 by ring, ← hq, div_neg, div_one, abs_of_nonpos (by linarith),
        abs_of_nonneg (by linarith)]
      linarith
    obtain ⟨w, ew, hw⟩ := w
    exact (flEx_line H.hu hq le_rfl (H.eq _ (by omega)) (H.eq _ (by omega)) (H.eg _ (by omega)) ew hw (by norm_num)
      (hel _ (by omega)) (hel _ (by omega))).2
  · refine ⟨hR y h, ?_⟩
    have := hM y h
    have := abs_nonneg y
    linarith

end Verif.Presets
