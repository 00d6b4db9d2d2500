import Verif.Props.GridMore
import Verif.Proofs.FlLin

/-!
# C60, C61: the linear grid interpolator with rounding
-/

set_option linter.unusedSectionVars false

namespace Verif.Grid
open Verif Verif.Interpolator Fl
variable {r : Rounding}

/-- the kernel in a half-open cell -/
theorem linearKernel_fl {Y X : List ℝ} (hY : Y.Pairwise (· < ·)) (hX : X.Pairwise (· < ·)) {V : List (List ℝ)}
    (hV : Dims Y.length X.length V) {i j : Nat} (hi : i + 1 < Y.length) (hj : j + 1 < X.length) {y x : ℝ}
    (y1 : i = 0 ∨ Y[i] ≤ y) (y2 : i + 2 = Y.length ∨ y < Y[i + 1]) (x1 : j = 0 ∨ X[j] ≤ x)
    (x2 : j + 2 = X.length ∨ x < X[j + 1]) :
    linearKernel (Y.map val) (X.map val) (flvals V) (val y) (val x)
      = (let t := weight r Y[i] Y[i + 1] y
         let s := weight r X[j] X[j + 1] x
         let v := fun a b => (V.getD a []).getD b 0
         val (v i j) * (1 - val t) * (1 - val s) + val (v i (j + 1)) * (1 - val t) * val s
          + val (v (i + 1) j) * val t * (1 - val s) + val (v (i + 1) (j + 1)) * val t * val s : Fl r) := by
  have dy : Y[i] ≠ Y[i + 1] := (sorted_lt hY (Nat.lt_succ_self i) hi).ne
  have dx : X[j] ≠ X[j + 1] := (sorted_lt hX (Nat.lt_succ_self j) hj).ne
  have i0 : i < Y.length := by omega
  have j0 : j < X.length := by omega
  unfold linearKernel
  simp only [interval_fl, interval_eq hY hi y1 y2, interval_eq hX hj x1 x2]
  rw [elem_flvals hV i0 j0, elem_flvals hV i0 hj, elem_flvals hV hi j0, elem_flvals hV hi hj]
  simp only [List.getD_eq_getElem?_getD, List.getElem?_map, List.getElem?_eq_getElem i0,
    List.getElem?_eq_getElem j0, List.getElem?_eq_getElem hi, List.getElem?_eq_getElem hj, Option.map_some,
    Option.getD_some, weight_val _ dy, weight_val _ dx]

/-- weights 0 and 1 -/
theorem corner_fl {t s a b c d : ℝ} (ht : t = 0 ∨ t = 1) (hs : s = 0 ∨ s = 1) (ha : Rep r.p a)
    (hb : Rep r.p b) (hc : Rep r.p c) (hd : Rep r.p d) :
    (val a * (1 - val t) * (1 - val s) + val b * (1 - val t) * val s + val c * val t * (1 - val s)
      + val d * val t * val s : Fl r)
      = val (if t = 0 then (if s = 0 then a else b) else (if s = 0 then c else d)) := by
  rcases ht with rfl | rfl <;> rcases hs with rfl | rfl <;>
    simp [one_eq, r.rnd_rep ha, r.rnd_rep hb, r.rnd_rep hc, r.rnd_rep hd]

/-- seven roundings -/
theorem bilin_fl_err (t s a b c d : ℝ) :
    ∃ x, (val a * (1 - val t) * (1 - val s) + val b * (1 - val t) * val s + val c * val t * (1 - val s)
      + val d * val t * val s : Fl r) = val x ∧
      ErrBy r 7 x (a * (1 - t) * (1 - s) + b * (1 - t) * s + c * t * (1 - s) + d * t * s)
        (|a| * |1 - t| * |1 - s| + |b| * |1 - t| * |s| + |c| * |t| * |1 - s| + |d| * |t| * |s|) := by
  have ht : ErrBy r 1 (r.rnd (1 - t)) (1 - t) |1 - t| := (ErrBy.exact (1 - t)).rnd
  have hs : ErrBy r 1 (r.rnd (1 - s)) (1 - s) |1 - s| := (ErrBy.exact (1 - s)).rnd
  have h1 := ((((ErrBy.exact (r := r) a).mul ht).rnd).mul hs).rnd
  have h2 := (((((ErrBy.exact (r := r) b).mul ht).rnd).mul (.exact s)).rnd).mono (k' := 4) (by omega) le_rfl
  have h3 := (((((ErrBy.exact (r := r) c).mul (.exact t)).rnd).mul hs).rnd).mono (k' := 5) (by omega) le_rfl
  have h4 := (((((ErrBy.exact (r := r) d).mul (.exact t)).rnd).mul (.exact s)).rnd).mono (k' := 6) (by omega) le_rfl
  have h12 := (h1.add h2).rnd
  have h123 := (h12.add h3).rnd
  refine ⟨_, ?_, (h123.add h4).rnd⟩
  rw [one_eq]
  rfl

/-- a convex combination of bounded numbers -/
theorem abs_convex_le {s P Q m : ℝ} (h0 : 0 ≤ s) (h1 : s ≤ 1) (hP : |P| ≤ m) (hQ : |Q| ≤ m) : |(1 - s) * P + s * Q| ≤ m := by
  calc |(1 - s) * P + s * Q| ≤ |(1 - s) * P| + |s * Q| := abs_add_le _ _
    _ = (1 - s) * |P| + s * |Q| := by rw [abs_mul, abs_mul, abs_of_nonneg h0, abs_of_nonneg (by linarith : (0 : ℝ) ≤ 1 - s)]
    _ ≤ (1 - s) * m + s * m :=
      add_le_add (mul_le_mul_of_nonneg_left hP (by linarith)) (mul_le_mul_of_nonneg_left hQ h0)
    _ = m := by ring

theorem abs_sub_le_two {P Q m : ℝ} (hP : |P| ≤ m) (hQ : |Q| ≤ m) : |P - Q| ≤ 2 * m := by
  have := abs_sub P Q
  linarith

/-- rounding of the sum and of the weights together -/
theorem bilin_near (hp : 4 ≤ r.p) {t s T S A B C D v M : ℝ} (t0 : 0 ≤ t) (t1 : t ≤ 1) (s0 : 0 ≤ s) (s1 : s ≤ 1)
    (T0 : 0 ≤ T) (T1 : T ≤ 1) (S0 : 0 ≤ S) (S1 : S ≤ 1) (et : |t - T| ≤ 4 * r.u * |T|) (es : |s - S| ≤ 4 * r.u * |S|)
    (h00 : |A| ≤ M) (h01 : |B| ≤ M) (h10 : |C| ≤ M) (h11 : |D| ≤ M)
    (h1 : |v - (A * (1 - t) * (1 - s) + B * (1 - t) * s + C * t * (1 - s) + D * t * s)| ≤ ((1 + r.u) ^ 7 - 1) *
      (|A| * |1 - t| * |1 - s| + |B| * |1 - t| * |s| + |C| * |t| * |1 - s| + |D| * |t| * |s|)) :
    |v - ((1 - T) * ((1 - S) * A + S * B) + T * ((1 - S) * C + S * D))| ≤ 30 * r.u * M := by
  have hu := r.u_pos
  have hu16 : r.u ≤ 1 / 16 := by
    unfold Rounding.u
    have : (2 : ℝ) ^ (-(r.p : ℤ)) ≤ 2 ^ (-4 : ℤ) := zpow_le_zpow_right₀ (by norm_num) (by omega)
    calc _ ≤ _ := this
      _ = _ := by norm_num
  have hM0 : 0 ≤ M := (abs_nonneg _).trans h00
  have hpow := pow_u_le (r := r) 7 (by push_cast; linarith)
  push_cast at hpow
  -- the sum of the weights is 1
  have hsum : |A| * |1 - t| * |1 - s| + |B| * |1 - t| * |s| + |C| * |t| * |1 - s| + |D| * |t| * |s| ≤ M := by
    rw [abs_of_nonneg t0, abs_of_nonneg s0, abs_of_nonneg (by linarith : (0 : ℝ) ≤ 1 - t),
      abs_of_nonneg (by linarith : (0 : ℝ) ≤ 1 - s)]
    have p1 : 0 ≤ (1 - t) * (1 - s) := mul_nonneg (by linarith) (by linarith)
    have p2 : 0 ≤ (1 - t) * s := mul_nonneg (by linarith) s0
    have p3 : 0 ≤ t * (1 - s) := mul_nonneg t0 (by linarith)
    have p4 : 0 ≤ t * s := mul_nonneg t0 s0
    calc |A| * (1 - t) * (1 - s) + |B| * (1 - t) * s + |C| * t * (1 - s) + |D| * t * s
        = |A| * ((1 - t) * (1 - s)) + |B| * ((1 - t) * s) + |C| * (t * (1 - s)) + |D| * (t * s) := by ring
      _ ≤ M * ((1 - t) * (1 - s)) + M * ((1 - t) * s) + M * (t * (1 - s)) + M * (t * s) := by
        gcongr
      _ = M := by ring
  have h1' : |v - (A * (1 - t) * (1 - s) + B * (1 - t) * s + C * t * (1 - s) + D * t * s)| ≤ 14 * r.u * M := by
    refine h1.trans ?_
    have : 0 ≤ (1 + r.u) ^ 7 - 1 := by have := one_le_pow_u (r := r) 7; linarith
    calc _ ≤ ((1 + r.u) ^ 7 - 1) * M := mul_le_mul_of_nonneg_left hsum this
      _ ≤ _ := mul_le_mul_of_nonneg_right (by linarith) hM0
  have dt : |t - T| ≤ 4 * r.u := by
    refine et.trans ?_
    rw [abs_of_nonneg T0]
    nlinarith
  have ds : |s - S| ≤ 4 * r.u := by
    refine es.trans ?_
    rw [abs_of_nonneg S0]
    nlinarith
  -- moving the weights
  have m1 : |(1 - s) * (C - A) + s * (D - B)| ≤ 2 * M :=
    abs_convex_le s0 s1 (abs_sub_le_two h10 h00) (abs_sub_le_two h11 h01)
  have m2 : |(1 - T) * (B - A) + T * (D - C)| ≤ 2 * M :=
    abs_convex_le T0 T1 (abs_sub_le_two h01 h00) (abs_sub_le_two h11 h10)
  have e : v - ((1 - T) * ((1 - S) * A + S * B) + T * ((1 - S) * C + S * D))
      = (v - (A * (1 - t) * (1 - s) + B * (1 - t) * s + C * t * (1 - s) + D * t * s))
        + (t - T) * ((1 - s) * (C - A) + s * (D - B)) + (s - S) * ((1 - T) * (B - A) + T * (D - C)) := by ring
  rw [e]
  calc _ ≤ |v - (A * (1 - t) * (1 - s) + B * (1 - t) * s + C * t * (1 - s) + D * t * s)|
        + |(t - T) * ((1 - s) * (C - A) + s * (D - B))| + |(s - S) * ((1 - T) * (B - A) + T * (D - C))| :=
        (abs_add_le _ _).trans (add_le_add_left (abs_add_le _ _) _)
    _ ≤ 14 * r.u * M + 4 * r.u * (2 * M) + 4 * r.u * (2 * M) := by
      rw [abs_mul, abs_mul]
      gcongr
    _ = _ := by ring

end Verif.Grid

namespace Verif.Props
open Verif Verif.Interpolator Verif.Spec Verif.Presets Verif.Grid Fl
variable {r : Rounding}

/-- the grid interpolator of floating point numbers -/
noncomputable def flGrid (be : Bool) (fill : Option (Fl r)) (Y X : List ℝ) (V : List (List ℝ)) : Single Unit (Fl r) :=
  ⟨Y.map val, X.map val, flvals V, fun _ =>
    (⟨Y.map val, X.map val, flvals V, be, fill, linearKernel⟩ : Rgi (Fl r)).scipy⟩

theorem flGrid_made (be : Bool) (fill : Option (Fl r)) {Y X : List ℝ} (hY : Y.Pairwise (· < ·)) (hX : X.Pairwise (· < ·))
    {V : List (List ℝ)} (hV : Dims Y.length X.length V) :
    singleGrid (fun _ => linearKernel) be fill (Y.map val) (X.map val) (flvals V) = .ok (flGrid be fill Y X V) := by
  have h : ((flvals V : Mat (Fl r)).length = (Y.map (val : ℝ → Fl r)).length ∧
      (flvals V : Mat (Fl r)).all (fun l => l.length == (X.map (val : ℝ → Fl r)).length) = true) := by
    refine ⟨by simp [flvals, hV.1], ?_⟩
    rw [List.all_eq_true]
    intro l hl
    obtain ⟨l', hl', rfl⟩ := List.mem_map.1 hl
    simp [hV.2 l' hl']
  rw [singleGrid]
  unfold mkRgi direction
  rw [if_pos ((strictInc_fl Y).2 hY), if_pos ((strictInc_fl X).2 hX)]
  simp only [bind, Except.bind]
  rw [if_neg (not_not.2 h)]
  rfl

theorem inBounds_fl {Y : List ℝ} (h : 0 < Y.length) (y : ℝ) :
    inBounds (Y.map val) (val y : Fl r) = true ↔ Y[0] ≤ y ∧ y ≤ Y[Y.length - 1] := by
  have e1 : (Y.map (val : ℝ → Fl r)).head? = some (val Y[0]) := by
    rw [List.head?_map, List.head?_eq_getElem?, List.getElem?_eq_getElem h]; rfl
  have e2 : (Y.map (val : ℝ → Fl r)).getLast? = some (val Y[Y.length - 1]) := by
    rw [List.getLast?_map, List.getLast?_eq_getElem?, List.getElem?_eq_getElem (by omega)]; rfl
  simp [inBounds, e1, e2]

theorem outOfBounds_fl {Y : List ℝ} (h : 0 < Y.length) (y : ℝ) :
    outOfBounds (Y.map val) (val y : Fl r) = false ↔ Y[0] ≤ y ∧ y ≤ Y[Y.length - 1] := by
  have e1 : (Y.map (val : ℝ → Fl r)).head? = some (val Y[0]) := by
    rw [List.head?_map, List.head?_eq_getElem?, List.getElem?_eq_getElem h]; rfl
  have e2 : (Y.map (val : ℝ → Fl r)).getLast? = some (val Y[Y.length - 1]) := by
    rw [List.getLast?_map, List.getLast?_eq_getElem?, List.getElem?_eq_getElem (by omega)]; rfl
  simp [Grid.outOfBounds, e1, e2]

/-- construction and evaluation at points inside: the kernel at every point -/
theorem flGrid_entry (tok : TokIn Unit (Fl r) → Nat) (be : Bool) (fill : Option (Fl r)) {Y X : List ℝ}
    (h2y : 2 ≤ Y.length) (h2x : 2 ≤ X.length) (V : List (List ℝ)) (fy fx : List ℝ)
    (hin : (∀ y ∈ fy, Inside Y y) ∧ ∀ x ∈ fx, Inside X x) :
    ∃ m, (flGrid be fill Y X V).interpolate tok (fy.map val) (fx.map val) none () = .ok m ∧
      Shape fy.length fx.length m ∧
      ∀ a (ha : a < fy.length) b (hb : b < fx.length),
        el (row m a) b = linearKernel (Y.map val) (X.map val) (flvals V) (val fy[a]) (val fx[b]) := by
  have hok : ((flGrid be fill Y X V).sci ()).ok (fy.map val) (fx.map val) = true := by
    show (!be || (fy.map (val : ℝ → Fl r)).all (fun y => (fx.map (val : ℝ → Fl r)).all (fun x =>
      inBounds (Y.map val) y && inBounds (X.map val) x))) = true
    cases be with
    | false => rfl
    | true =>
      simp only [Bool.not_true, Bool.false_or, List.all_map, List.all_eq_true, Function.comp, Bool.and_eq_true,
        inBounds_fl (by omega : 0 < Y.length), inBounds_fl (by omega : 0 < X.length)]
      exact fun y hy x hx => ⟨hin.1 y hy (by omega), hin.2 x hx (by omega)⟩
  refine ⟨(fy.map val).map (fun y => (fx.map val).map (fun x => ((flGrid be fill Y X V).sci ()).point y x)), ?_,
    ⟨by simp, ?_⟩, ?_⟩
  · show interpolateNumpy _ _ _ = _
    rw [interpolateNumpy, if_pos hok]
  · intro l hl; obtain ⟨y, _, rfl⟩ := List.mem_map.1 hl; simp
  · intro a ha b hb
    rw [row, getD_of_lt _ _ (by simpa using ha), List.getElem_map, el, getD_of_lt _ _ (by simpa using hb), List.getElem_map]
    simp only [List.getElem_map]
    have o1 := (outOfBounds_fl (r := r) (by omega : 0 < Y.length) fy[a]).2 (hin.1 _ (List.getElem_mem ha) (by omega))
    have o2 := (outOfBounds_fl (r := r) (by omega : 0 < X.length) fx[b]).2 (hin.2 _ (List.getElem_mem hb) (by omega))
    show Rgi.point (⟨Y.map val, X.map val, flvals V, be, fill, linearKernel⟩ : Rgi (Fl r)) _ _ = _
    unfold Rgi.point
    cases be <;> cases fill <;> simp only [o1, o2, Bool.or_self, Bool.false_and, Bool.false_eq_true, if_false]

theorem inside_getElem {Y : List ℝ} (hY : Y.Pairwise (· < ·)) {y : ℝ} (h : y ∈ Y) : Inside Y y := by
  intro h0
  obtain ⟨i, hi, rfl⟩ := List.getElem_of_mem h
  exact ⟨sorted_le hY (Nat.zero_le _) hi, sorted_le hY (by omega) (by omega)⟩

/-- the cell of a tie position, and its weight, which is exactly 0 or 1 -/
theorem tie_cell {Z : List ℝ} (hZ : Z.Pairwise (· < ·)) (h2 : 2 ≤ Z.length) {k : Nat} (hk : k < Z.length) :
    ∃ c, ∃ hc : c + 1 < Z.length, (c = 0 ∨ Z[c] ≤ Z[k]) ∧ (c + 2 = Z.length ∨ Z[k] < Z[c + 1]) ∧
      ((c = k ∧ weight r Z[c] Z[c + 1] Z[k] = 0) ∨ (c + 1 = k ∧ weight r Z[c] Z[c + 1] Z[k] = 1)) := by
  by_cases h : k + 1 < Z.length
  · exact ⟨k, h, Or.inr (le_refl _), Or.inr (sorted_lt hZ (Nat.lt_succ_self k) h), Or.inl ⟨rfl, weight_left⟩⟩
  · obtain ⟨c, rfl⟩ : ∃ c, k = c + 1 := ⟨k - 1, by omega⟩
    exact ⟨c, hk, Or.inr (sorted_le hZ (Nat.le_succ c) hk), Or.inl (by omega), Or.inr ⟨rfl,
      weight_right (sorted_lt hZ (Nat.lt_succ_self c) hk).ne⟩⟩

/-- **C60 (grid interpolator)**: tie values are reproduced bit for bit.  For strictly increasing positions (at least two in
each dimension), an array of floating point numbers of that shape, any options, any precision and rounding: the
interpolator evaluated at its tie positions returns the array. -/
theorem C60_grid (tok : TokIn Unit (Fl r) → Nat) (be : Bool) (fill : Option (Fl r)) (Y X : List ℝ)
    (hY : Y.Pairwise (· < ·)) (hX : X.Pairwise (· < ·)) (h2y : 2 ≤ Y.length) (h2x : 2 ≤ X.length)
    (V : List (List ℝ)) (hV : Dims Y.length X.length V) (hrep : ∀ l ∈ V, ∀ v ∈ l, Rep r.p v) :
    ∃ s m, singleGrid (fun _ => linearKernel) be fill (Y.map val) (X.map val) (flvals V) = .ok s ∧
      s.interpolate tok (Y.map val) (X.map val) none () = .ok m ∧ Shape Y.length X.length m ∧
      ∀ i j : Nat, i < Y.length → j < X.length → el (row m i) j = val (corner V i j) := by
  obtain ⟨m, hm, hs, he⟩ := flGrid_entry tok be fill h2y h2x V Y X
    ⟨fun _ h => inside_getElem hY h, fun _ h => inside_getElem hX h⟩
  refine ⟨_, m, flGrid_made be fill hY hX hV, hm, hs, ?_⟩
  intro i j hi hj
  rw [he i hi j hj]
  obtain ⟨a, ha, a1, a2, a3⟩ := tie_cell (r := r) hY h2y hi
  obtain ⟨b, hb, b1, b2, b3⟩ := tie_cell (r := r) hX h2x hj
  rw [linearKernel_fl hY hX hV ha hb a1 a2 b1 b2]
  have hc : ∀ k l : Nat, Rep r.p ((V.getD k []).getD l 0) := by
    intro k l
    rw [List.getD_eq_getElem?_getD, List.getD_eq_getElem?_getD]
    cases hk : V[k]? with
    | none => simpa using rep_zero
    | some L =>
      simp only [Option.getD_some]
      cases hl : L[l]? with
      | none => simpa using rep_zero
      | some v => exact hrep L (List.mem_of_getElem? hk) v (List.mem_of_getElem? hl)
  simp only
  rw [corner_fl (a3.imp And.right And.right) (b3.imp And.right And.right) (hc _ _) (hc _ _) (hc _ _) (hc _ _)]
  unfold corner
  rcases a3 with ⟨e, ht⟩ | ⟨e, ht⟩ <;> rcases b3 with ⟨f, hs⟩ | ⟨f, hs⟩ <;> rw [ht, hs] <;> simp [e, f]

/-- **C61 (grid interpolator)**: with rounding, the result at every fine point inside the grid is within `30 u M` of the
bilinear function of the cell (any closed cell that contains the point), where `u = 2^-p` and `M` bounds the absolute
values of the array; any precision of at least 4 bits, any rounding, any options.  For doubles and `M` the radius of the
Earth in metres this is 2e-8 metres. -/
theorem C61_grid (tok : TokIn Unit (Fl r) → Nat) (hp : 4 ≤ r.p) (be : Bool) (fill : Option (Fl r)) (Y X : List ℝ)
    (hY : Y.Pairwise (· < ·)) (hX : X.Pairwise (· < ·)) (h2y : 2 ≤ Y.length) (h2x : 2 ≤ X.length)
    (V : List (List ℝ)) (hV : Dims Y.length X.length V) (M : ℝ) (hM : ∀ i j : Nat, |corner V i j| ≤ M) (fy fx : List ℝ)
    (hin : (∀ y ∈ fy, Inside Y y) ∧ ∀ x ∈ fx, Inside X x) :
    ∃ s m, singleGrid (fun _ => linearKernel) be fill (Y.map val) (X.map val) (flvals V) = .ok s ∧
      s.interpolate tok (fy.map val) (fx.map val) none () = .ok m ∧ Shape fy.length fx.length m ∧
      ∀ a (ha : a < fy.length) b (hb : b < fx.length) i (hi : i + 1 < Y.length) j (hj : j + 1 < X.length),
        Y[i] ≤ fy[a] → fy[a] ≤ Y[i + 1] → X[j] ≤ fx[b] → fx[b] ≤ X[j + 1] →
        ∃ v, el (row m a) b = val v ∧
          |v - bilin Y[i] Y[i + 1] X[j] X[j + 1] (corner V i j) (corner V i (j + 1)) (corner V (i + 1) j)
            (corner V (i + 1) (j + 1)) fy[a] fx[b]| ≤ 30 * r.u * M := by
  obtain ⟨m, hm, hs, he⟩ := flGrid_entry tok be fill h2y h2x V fy fx hin
  refine ⟨_, m, flGrid_made be fill hY hX hV, hm, hs, ?_⟩
  intro a ha b hb i hi j hj y1 y2 x1 x2
  rw [he a ha b hb]
  obtain ⟨k, hk, k1, k2, k3⟩ := find_cell hY hi (Or.inr y1) (Or.inr y2)
  obtain ⟨l, hl, l1, l2, l3⟩ := find_cell hX hj (Or.inr x1) (Or.inr x2)
  -- the exact value does not depend on the choice of the cell
  have hex : bilin Y[i] Y[i + 1] X[j] X[j + 1] (corner V i j) (corner V i (j + 1)) (corner V (i + 1) j)
      (corner V (i + 1) (j + 1)) fy[a] fx[b] = cellBilin Y X V k l fy[a] fx[b] := by
    have h1 := linearKernel_closed hY hX hV hi hj (Or.inr y1) (Or.inr y2) (Or.inr x1) (Or.inr x2)
    rw [linearKernel_cell hY hX hV hk hl k1 k2 l1 l2, ← cellBilin_eq, FP.val.injEq] at h1
    rw [h1]
    unfold cellBilin
    rw [getD_at Y hi, getD_at Y (by omega : i < Y.length), getD_at X hj, getD_at X (by omega : j < X.length)]
  rw [hex]
  have hyk : Y[k] ≤ fy[a] ∧ fy[a] ≤ Y[k + 1] := by
    rcases k3 with rfl | ⟨rfl, e⟩
    · exact ⟨y1, y2⟩
    · exact ⟨e.ge, e.le.trans (sorted_le hY (by omega) hk)⟩
  have hxl : X[l] ≤ fx[b] ∧ fx[b] ≤ X[l + 1] := by
    rcases l3 with rfl | ⟨rfl, e⟩
    · exact ⟨x1, x2⟩
    · exact ⟨e.ge, e.le.trans (sorted_le hX (by omega) hl)⟩
  have hyl := sorted_lt hY (Nat.lt_succ_self k) hk
  have hxl' := sorted_lt hX (Nat.lt_succ_self l) hl
  rw [linearKernel_fl hY hX hV hk hl k1 k2 l1 l2]
  simp only
  obtain ⟨t0, t1⟩ := weight_range (r := r) hyl hyk.1 hyk.2
  obtain ⟨s0, s1⟩ := weight_range (r := r) hxl' hxl.1 hxl.2
  have et := weight_err (r := r) (by omega) fy[a] hyl.ne
  have es := weight_err (r := r) (by omega) fx[b] hxl'.ne
  set t := weight r Y[k] Y[k + 1] fy[a]
  set s := weight r X[l] X[l + 1] fx[b]
  have T0 : 0 ≤ (fy[a] - Y[k]) / (Y[k + 1] - Y[k]) := div_nonneg (by linarith [hyk.1]) (by linarith)
  have T1 : (fy[a] - Y[k]) / (Y[k + 1] - Y[k]) ≤ 1 := (div_le_one (by linarith)).2 (by linarith [hyk.2])
  have S0 : 0 ≤ (fx[b] - X[l]) / (X[l + 1] - X[l]) := div_nonneg (by linarith [hxl.1]) (by linarith)
  have S1 : (fx[b] - X[l]) / (X[l + 1] - X[l]) ≤ 1 := (div_le_one (by linarith)).2 (by linarith [hxl.2])
  have hcb : cellBilin Y X V k l fy[a] fx[b] = bilin Y[k] Y[k + 1] X[l] X[l + 1] (corner V k l) (corner V k (l + 1))
      (corner V (k + 1) l) (corner V (k + 1) (l + 1)) fy[a] fx[b] := by
    unfold cellBilin
    rw [getD_at Y hk, getD_at Y (by omega : k < Y.length), getD_at X hl, getD_at X (by omega : l < X.length)]
  rw [hcb]
  unfold bilin
  simp only
  set T := (fy[a] - Y[k]) / (Y[k + 1] - Y[k])
  set S := (fx[b] - X[l]) / (X[l + 1] - X[l])
  obtain ⟨v, ev, h1, -⟩ := bilin_fl_err (r := r) t s (corner V k l) (corner V k (l + 1)) (corner V (k + 1) l)
    (corner V (k + 1) (l + 1))
  refine ⟨v, ev, ?_⟩
  exact bilin_near hp t0 t1 s0 s1 T0 T1 S0 S1 et es (hM k l) (hM k (l + 1)) (hM (k + 1) l) (hM (k + 1) (l + 1)) h1

/-- three by two positions, in float32 -/
example (tok : TokIn Unit (Fl (Rounding.correct 24 (by norm_num))) → Nat) :=
  C60_grid tok true none [0, 5, 10] [0, 4] (by norm_num) (by norm_num) (by simp) (by simp) [[10, 11], [10, 12], [11, 13]]
    ⟨rfl, by simp⟩ (by
      have : ∀ n : ℤ, |n| ≤ 2 ^ 24 → Rep (Rounding.correct 24 (by norm_num)).p n := fun n h => rep_int (by norm_num [Rounding.correct]) h
      intro l hl v hv
      simp only [List.mem_cons, List.not_mem_nil, or_false] at hl
      rcases hl with rfl | rfl | rfl <;> simp only [List.mem_cons, List.not_mem_nil, or_false] at hv <;>
        rcases hv with rfl | rfl
      · exact_mod_cast this 10 (by norm_num)
      · exact_mod_cast this 11 (by norm_num)
      · exact_mod_cast this 10 (by norm_num)
      · exact_mod_cast this 12 (by norm_num)
      · exact_mod_cast this 11 (by norm_num)
      · exact_mod_cast this 13 (by norm_num))

example (tok : TokIn Unit (Fl (Rounding.correct 24 (by norm_num))) → Nat) :=
  C61_grid tok (by norm_num [Rounding.correct]) true none [0, 5, 10] [0, 4] (by norm_num) (by norm_num) (by simp) (by simp)
    [[10, 11], [10, 12], [11, 13]] ⟨rfl, by simp⟩ 13 (by
      intro i j
      unfold corner
      rcases i with _ | _ | _ | i <;> rcases j with _ | _ | j <;> simp <;> norm_num) [0, 5 / 2, 5] [0, 1, 4] (by
    constructor <;> intro y hy _ <;> simp only [List.mem_cons, List.not_mem_nil, or_false] at hy <;>
      rcases hy with rfl | rfl | rfl <;> norm_num)

end Verif.Props
