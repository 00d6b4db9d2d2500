import Verif.Props.ModisAgree
import Verif.Props.GridMore
import Verif.Props.Vii
import Verif.Props.Multilinear

/-!
# C100: how much errors of the tie points are amplified (exact arithmetic)
-/

namespace Verif.Spec

/-- how far `x` lies outside the positions `0, …, n-1` -/
noncomputable def beyond (n : Nat) (x : ℝ) : ℝ := max 0 (max (-x) (x - ((n : ℝ) - 1)))

end Verif.Spec

namespace Verif.Props
open Verif FP Verif.Spec Verif.ModisSimple

/-! ### piecewise linear interpolation -/

theorem beyond_nonneg (n : Nat) (x : ℝ) : 0 ≤ beyond n x := le_max_left _ _

theorem lin1_sub (n : Nat) (g h : Nat → ℝ) (x : ℝ) : lin1 n g x - lin1 n h x = lin1 n (fun a => g a - h a) x := by
  unfold lin1; ring

private theorem lin1_spread {n : Nat} (hn : 2 ≤ n) (x : ℝ) :
    ∃ c : Nat, c + 2 ≤ n ∧ (∀ g, lin1 n g x = (1 - (x - c)) * g c + (x - c) * g (c + 1)) ∧
      ((beyond n x = 0 ∧ 0 ≤ x - c ∧ x - c ≤ 1) ∨ (beyond n x = -(x - c) ∧ x - c < 0) ∨ (beyond n x = x - c - 1 ∧ 1 < x - c)) := by
  have hn' : (2 : ℝ) ≤ n := by exact_mod_cast hn
  refine ⟨cell1 n x, by unfold cell1; omega, fun g => rfl, ?_⟩
  unfold beyond cell1
  rcases lt_trichotomy x 0 with h | h | h
  · right; left
    rw [Nat.floor_of_nonpos h.le, Nat.zero_min, max_eq_left (by linarith : x - ((n : ℝ) - 1) ≤ -x), max_eq_right (by linarith : 0 ≤ -x)]
    simp [h]
  · left
    subst h
    have : (1 : ℝ) ≤ n := by linarith
    simp [this]
  · rcases le_or_gt x ((n : ℝ) - 1) with h1 | h1
    · left
      refine ⟨by rw [max_eq_left]; exact max_le (by linarith) (by linarith), ?_, ?_⟩
      · have h2 := Nat.floor_le h.le
        have h3 : ((min ⌊x⌋₊ (n - 2) : Nat) : ℝ) ≤ ⌊x⌋₊ := by exact_mod_cast min_le_left _ _
        linarith
      · rcases le_total ⌊x⌋₊ (n - 2) with h2 | h2
        · rw [min_eq_left h2]
          linarith [Nat.lt_floor_add_one x]
        · rw [min_eq_right h2, Nat.cast_sub hn]
          push_cast
          linarith
    · right; right
      have h2 : n - 2 ≤ ⌊x⌋₊ := by
        rw [Nat.le_floor_iff h.le, Nat.cast_sub hn]; push_cast; linarith
      rw [min_eq_right h2, Nat.cast_sub hn, max_eq_right (by linarith : -x ≤ x - ((n : ℝ) - 1)), max_eq_right (by linarith)]
      push_cast
      exact ⟨by ring, by linarith⟩

/-- values of at most `e` give at most `(1 + 2d) e` at the distance `d` from the positions -/
theorem lin1_bound {n : Nat} (hn : 2 ≤ n) {g : Nat → ℝ} {e : ℝ} (h : ∀ a < n, |g a| ≤ e) (x : ℝ) :
    |lin1 n g x| ≤ (1 + 2 * beyond n x) * e := by
  obtain ⟨c, hc, hg, hb⟩ := lin1_spread hn x
  rw [hg]
  have h0 := abs_le.1 (h c (by omega))
  have h1 := abs_le.1 (h (c + 1) (by omega))
  generalize x - (c : ℝ) = t at *
  rw [abs_le]
  rcases hb with ⟨eb, b1, b2⟩ | ⟨eb, b1⟩ | ⟨eb, b1⟩ <;> rw [eb] <;> constructor <;> nlinarith

/-- there are values of size `e` that give this bound -/
theorem lin1_sharp {n : Nat} (hn : 2 ≤ n) (x : ℝ) : ∃ p : Nat → ℝ, (∀ a, |p a| = 1) ∧ lin1 n p x = 1 + 2 * beyond n x := by
  obtain ⟨c, hc, hg, hb⟩ := lin1_spread hn x
  rcases hb with ⟨eb, b1, b2⟩ | ⟨eb, b1⟩ | ⟨eb, b1⟩
  · exact ⟨fun _ => 1, by simp, by rw [hg, eb]; ring⟩
  · refine ⟨fun a => if a = c then 1 else -1, fun a => by dsimp only; split <;> simp, ?_⟩
    rw [hg, eb]
    simp
    ring
  · refine ⟨fun a => if a = c then -1 else 1, fun a => by dsimp only; split <;> simp, ?_⟩
    rw [hg, eb]
    simp
    ring

/-! ### bilinear interpolation with linear extension -/

/-- **C100 (bilinear)**: tie values that differ by at most `e` give results that differ by at most `(1 + 2d)(1 + 2d')e`, where `d` and
`d'` are the distances of the row and the column from the tie rows and columns; inside the tie points errors do not grow. -/
theorem C100_bilinear {R C : Nat} (hR : 2 ≤ R) (hC : 2 ≤ C) (V V' : Nat → Nat → ℝ) {e : ℝ}
    (h : ∀ a < R, ∀ b < C, |V a b - V' a b| ≤ e) (y x : ℝ) :
    |bilinExt R C V y x - bilinExt R C V' y x| ≤ (1 + 2 * beyond R y) * ((1 + 2 * beyond C x) * e) := by
  unfold bilinExt
  rw [lin1_sub]
  refine lin1_bound hR (fun a ha => ?_) y
  rw [lin1_sub]
  exact lin1_bound hC (h a ha) x

example (V : Nat → Nat → ℝ) : |bilinExt 10 1354 V (-3 / 8) 7.5 - bilinExt 10 1354 (fun a b => V a b + 100) (-3 / 8) 7.5| ≤ 175 := by
  refine (C100_bilinear (R := 10) (C := 1354) (by omega) (by omega) V _ (e := 100) (fun a _ b _ => by simp) (-3 / 8) 7.5).trans ?_
  norm_num [beyond]

/-- **C100 (bilinear, sharp)**: for every position and all tie values there are tie values that differ by `e` everywhere and whose
results differ by exactly this bound. -/
theorem C100_bilinear_sharp {R C : Nat} (hR : 2 ≤ R) (hC : 2 ≤ C) (V : Nat → Nat → ℝ) {e : ℝ} (he : 0 ≤ e) (y x : ℝ) :
    ∃ V' : Nat → Nat → ℝ, (∀ a b, |V a b - V' a b| = e) ∧
      bilinExt R C V y x - bilinExt R C V' y x = (1 + 2 * beyond R y) * ((1 + 2 * beyond C x) * e) := by
  obtain ⟨p, p1, p2⟩ := lin1_sharp hR y
  obtain ⟨q, q1, q2⟩ := lin1_sharp hC x
  refine ⟨fun a b => V a b - p a * (q b * e), fun a b => ?_, ?_⟩
  · rw [sub_sub_cancel, abs_mul, abs_mul, p1, q1, abs_of_nonneg he]; ring
  · unfold bilinExt
    rw [lin1_sub, ← p2, ← q2]
    unfold lin1
    ring

/-- the corner pixel of a 250 m swath: `3/8` of a row and `3/4` of a column outside, errors grow by 4.375 -/
example (V : Nat → Nat → ℝ) : ∃ V' : Nat → Nat → ℝ, (∀ a b, |V a b - V' a b| = 100) ∧
    bilinExt 10 1354 V (-3 / 8) (1353 + 3 / 4) - bilinExt 10 1354 V' (-3 / 8) (1353 + 3 / 4) = 437.5 := by
  obtain ⟨V', h1, h2⟩ := C100_bilinear_sharp (R := 10) (C := 1354) (by omega) (by omega) V (e := 100) (by norm_num) (-3 / 8) (1353 + 3 / 4)
  refine ⟨V', h1, h2.trans ?_⟩
  norm_num [beyond]

/-! ### the simple MODIS interpolator -/

private theorem beyond_row (c : SConv) {j : Nat} (hj : j < 10 * c.factor) :
    1 + 2 * beyond 10 (((j : ℝ) + 1 / 2) / c.factor - 1 / 2) ≤ 2 - 1 / c.factor := by
  have hj' : (j : ℝ) + 1 ≤ 10 * c.factor := by exact_mod_cast hj
  have hj0 : (0 : ℝ) ≤ j := Nat.cast_nonneg _
  unfold beyond
  have : max 0 (max (-(((j : ℝ) + 1 / 2) / c.factor - 1 / 2)) (((j : ℝ) + 1 / 2) / c.factor - 1 / 2 - (((10 : ℕ) : ℝ) - 1)))
      ≤ 1 / 2 - 1 / (2 * c.factor) := by
    cases c <;> norm_num [SConv.factor] at hj' ⊢ <;> constructor <;> linarith
  have e : (1 : ℝ) / (2 * c.factor) = 1 / c.factor / 2 := by rw [div_div, mul_comm]
  linarith

private theorem beyond_col (c : SConv) {C i : Nat} (hi : i < C * c.factor) :
    1 + 2 * beyond C ((i : ℝ) / c.factor) ≤ 3 - 2 / c.factor := by
  have hi' : (i : ℝ) + 1 ≤ C * c.factor := by exact_mod_cast hi
  have hi0 : (0 : ℝ) ≤ i := Nat.cast_nonneg _
  unfold beyond
  have : max 0 (max (-((i : ℝ) / c.factor)) ((i : ℝ) / c.factor - ((C : ℝ) - 1))) ≤ 1 - 1 / c.factor := by
    cases c <;> norm_num [SConv.factor] at hi' ⊢ <;> constructor <;> linarith
  have e : (2 : ℝ) / c.factor = 2 * (1 / c.factor) := by ring
  linarith

/-- the largest amplification of the simple interpolator: 3 at 500 m, 4.375 at 250 m -/
noncomputable def SConv.gain (c : SConv) : ℝ := (2 - 1 / (c.factor : ℝ)) * (3 - 2 / (c.factor : ℝ))

theorem gain_500 : SConv.gain .km1to500 = 3 := by norm_num [SConv.gain, SConv.factor]
theorem gain_250 : SConv.gain .km1to250 = 4.375 := by norm_num [SConv.gain, SConv.factor]

/-- **C100 (simple MODIS interpolator)**: if the tie points of two swaths differ by at most `e` metres in every cartesian component, the
points that are reported differ by at most `3e` (500 m) or `4.375e` (250 m) in every component. -/
theorem C100_simple (c : SConv) (n C : Nat) (hC : 2 ≤ C) (lon lat lon' lat' : Nat → Nat → ℝ) {e : ℝ}
    (h : ∀ k i b, i < n * 10 → b < C → |tieR lon lat k i b - tieR lon' lat' k i b| ≤ e)
    (junk junk' : Nat → Nat → Nat → Nat → FP ℝ) :
    ∃ out out', c.run mcLinear ⟨n * 10, C, fun i j => val (lon i j)⟩ ⟨n * 10, C, fun i j => val (lat i j)⟩ junk = .ok out ∧
      c.run mcLinear ⟨n * 10, C, fun i j => val (lon' i j)⟩ ⟨n * 10, C, fun i j => val (lat' i j)⟩ junk' = .ok out' ∧
      ∀ s j i, s < n → j < 10 * c.factor → i < C * c.factor → ∃ P P' : ℝ × ℝ × ℝ,
        (out.1.cell (s * (10 * c.factor) + j) i, out.2.cell (s * (10 * c.factor) + j) i) = geoOf P ∧
        (out'.1.cell (s * (10 * c.factor) + j) i, out'.2.cell (s * (10 * c.factor) + j) i) = geoOf P' ∧
        |P.1 - P'.1| ≤ c.gain * e ∧ |P.2.1 - P'.2.1| ≤ c.gain * e ∧ |P.2.2 - P'.2.2| ≤ c.gain * e := by
  obtain ⟨out, e1, h1⟩ := C36_bilinear c n C hC lon lat junk
  obtain ⟨out', e2, h2⟩ := C36_bilinear c n C hC lon' lat' junk'
  refine ⟨out, out', e1, e2, fun s j i hs hj hi => ⟨simplePoint C c.factor lon lat s j i, simplePoint C c.factor lon' lat' s j i, ?_, ?_, ?_⟩⟩
  · rw [h1 s j i hs hj hi, ← cy_geoOf]; rfl
  · rw [h2 s j i hs hj hi, ← cy_geoOf]; rfl
  have key : ∀ k, |bilinExt 10 C (fun a b => tieR lon lat k (s * 10 + a) b) (((j : ℝ) + 1 / 2) / c.factor - 1 / 2) ((i : ℝ) / c.factor)
      - bilinExt 10 C (fun a b => tieR lon' lat' k (s * 10 + a) b) (((j : ℝ) + 1 / 2) / c.factor - 1 / 2) ((i : ℝ) / c.factor)| ≤ c.gain * e := by
    intro k
    have he : 0 ≤ e := (abs_nonneg _).trans (h 0 (s * 10) 0 (by omega) (by omega))
    refine (C100_bilinear (by omega) hC _ _ (fun a ha b hb => h k (s * 10 + a) b (by omega) hb) _ _).trans ?_
    rw [← mul_assoc]
    refine mul_le_mul_of_nonneg_right ?_ he
    have q1 := beyond_nonneg C ((i : ℝ) / c.factor)
    exact mul_le_mul (beyond_row c hj) (beyond_col c hi) (by linarith) (by
      have := beyond_nonneg 10 (((j : ℝ) + 1 / 2) / c.factor - 1 / 2)
      have := beyond_row c hj
      linarith)
  exact ⟨key 0, key 1, key 2⟩

/-! ### VII, grids, multilinear interpolation -/

section
variable {K : Type} [Field K] [LinearOrder K] [IsStrictOrderedRing K]

/-- **C100 (VII)**: inside a cell of the VII grid, values that differ by at most `e` at its four tie points give results that differ by at
most `e` (C41: this is the value of the pixel). -/
theorem C100_vii (V V' : Nat → Nat → K) (m l F u w : Nat) (hu : u < F) (hw : w < F) (e : K)
    (h : ∀ i ≤ 1, ∀ j ≤ 1, |V (m + i) (l + j) - V' (m + i) (l + j)| ≤ e) :
    |Spec.bilinear V m l ((u : K) / F) ((w : K) / F) - Spec.bilinear V' m l ((u : K) / F) ((w : K) / F)| ≤ e := by
  have := C41_between (fun a b => V a b - V' a b) m l F u w hu hw (-e) e (fun i hi j hj => abs_le.1 (h i hi j hj))
  rw [abs_le]
  have e1 : Spec.bilinear V m l ((u : K) / F) ((w : K) / F) - Spec.bilinear V' m l ((u : K) / F) ((w : K) / F)
      = Spec.bilinear (fun a b => V a b - V' a b) m l ((u : K) / F) ((w : K) / F) := by
    unfold Spec.bilinear; ring
  rw [e1]
  exact this

example : |Spec.bilinear (fun i j => (i : ℚ) * j) 3 5 ((7 : Nat) / (8 : Nat)) ((2 : Nat) / (8 : Nat))
    - Spec.bilinear (fun i j => (i : ℚ) * j + if j = 6 then 1 / 10 else 0) 3 5 ((7 : Nat) / (8 : Nat)) ((2 : Nat) / (8 : Nat))| ≤ 1 / 10 :=
  C100_vii _ _ 3 5 8 7 2 (by omega) (by omega) _ (by
    intro i _ j _
    split_ifs <;> norm_num)

open Verif.Grid Verif.Interpolator Verif.Presets in
/-- **C100 (grids)**: inside the positions, arrays that differ by at most `e` give results that differ by at most `e`. -/
theorem C100_grid (tok : TokIn Unit (FP K) → Nat) (be : Bool) (fill : Option (FP K)) (Y X : List K)
    (hY : Y.Pairwise (· < ·)) (hX : X.Pairwise (· < ·)) (h2y : 2 ≤ Y.length) (h2x : 2 ≤ X.length)
    (V V' : List (List K)) (hV : Dims Y.length X.length V) (hV' : Dims Y.length X.length V') (e : K)
    (he : ∀ i j : Nat, i < Y.length → j < X.length → |corner V i j - corner V' i j| ≤ e) (fy fx : List K)
    (hin : (∀ y ∈ fy, Inside Y y) ∧ ∀ x ∈ fx, Inside X x) :
    ∃ s s' r r', singleGrid (fun _ => linearKernel) be fill (Y.map val) (X.map val) (Grid.vals V) = .ok s ∧
      singleGrid (fun _ => linearKernel) be fill (Y.map val) (X.map val) (Grid.vals V') = .ok s' ∧
      s.interpolate tok (fy.map val) (fx.map val) none () = .ok r ∧ s'.interpolate tok (fy.map val) (fx.map val) none () = .ok r' ∧
      ∀ a b : Nat, a < fy.length → b < fx.length → ∃ v v', el (row r a) b = val v ∧ el (row r' a) b = val v' ∧ |v - v'| ≤ e := by
  obtain ⟨s, r, hs, hr, -, hv⟩ := C54_cell_value tok be fill Y X hY hX h2y h2x V hV fy fx (fun _ => hin)
  obtain ⟨s', r', hs', hr', -, hv'⟩ := C54_cell_value tok be fill Y X hY hX h2y h2x V' hV' fy fx (fun _ => hin)
  refine ⟨s, s', r, r', hs, hs', hr, hr', fun a b ha hb => ?_⟩
  obtain ⟨i, hi, y1, y2⟩ := exists_cell h2y (hin.1 _ (List.getElem_mem ha))
  obtain ⟨j, hj, x1, x2⟩ := exists_cell h2x (hin.2 _ (List.getElem_mem hb))
  refine ⟨_, _, hv a ha b hb i hi j hj y1 y2 x1 x2, hv' a ha b hb i hi j hj y1 y2 x1 x2, ?_⟩
  have e1 : ∀ y0 y1 x0 x1 a b c d a' b' c' d' y x : K, bilin y0 y1 x0 x1 a b c d y x - bilin y0 y1 x0 x1 a' b' c' d' y x
      = bilin y0 y1 x0 x1 (a - a') (b - b') (c - c') (d - d') y x := by
    intros; unfold bilin; ring
  rw [e1, abs_le]
  have hc := fun i j hi hj => abs_le.1 (he i j hi hj)
  exact bilin_between (sorted_lt hY (Nat.lt_succ_self i) hi) (sorted_lt hX (Nat.lt_succ_self j) hj) y1 y2 x1 x2
    (hc i j (by omega) (by omega)) (hc i (j + 1) (by omega) hj) (hc (i + 1) j hi (by omega)) (hc (i + 1) (j + 1) hi hj)

open Verif.Multilinear

omit [IsStrictOrderedRing K] in
/-- the kernels are linear in the values -/
theorem mlin_sub (cs : List (Nat × K)) (W W' : List Nat → K) :
    ∃ v v', mlin (cs.map (fun c => (c.1, val c.2))) (fun is => val (W is)) = val v ∧
      mlin (cs.map (fun c => (c.1, val c.2))) (fun is => val (W' is)) = val v' ∧
      mlin (cs.map (fun c => (c.1, val c.2))) (fun is => val (W is - W' is)) = val (v - v') := by
  induction cs generalizing W W' with
  | nil => exact ⟨W [], W' [], rfl, rfl, rfl⟩
  | cons c cs ih =>
    obtain ⟨a, a', h1, h2, h3⟩ := ih (fun is => W (c.1 :: is)) (fun is => W' (c.1 :: is))
    obtain ⟨b, b', k1, k2, k3⟩ := ih (fun is => W ((c.1 + 1) :: is)) (fun is => W' ((c.1 + 1) :: is))
    refine ⟨(1 - c.2) * a + c.2 * b, (1 - c.2) * a' + c.2 * b', ?_, ?_, ?_⟩
    · simp only [List.map_cons, mlin]
      rw [h1, k1]; simp
    · simp only [List.map_cons, mlin]
      rw [h2, k2]; simp
    · simp only [List.map_cons, mlin]
      rw [h3, k3]; simp; ring

/-- **C100 (multilinear)**: for a point inside the grid, two rows of values that differ by at most `e` at every node give results that
differ by at most `e`. -/
theorem C100_multilinear (cast : FP K → Int) (hcast : CTrunc cast) (reorder : Nat → List Nat → List Nat)
    (junk : Nat → Nat → FP K) (G : List (Axis K)) (hG : GridOk G) (hlt : ∀ g ∈ G, g.lo < g.hi) (values s : Arr2 (FP K))
    (hV : (G.map Axis.n).prod ≤ values.cols) (hs : s.rows = G.length) (hn : s.cols < 2 ^ 31)
    (hre : ∀ i, (reorder i (List.range s.cols)).Perm (List.range s.cols)) :
    ∃ r, (mli G values).interpolate cast reorder junk s = .ok r ∧ r.rows = values.rows ∧ r.cols = s.cols ∧
      ∀ i < values.rows, ∀ i' < values.rows, ∀ e : K,
        (∀ k < (G.map Axis.n).prod, ∃ v v', values.cell i k = val v ∧ values.cell i' k = val v' ∧ |v - v'| ≤ e) →
        ∀ j < s.cols, ∀ p, Spec.Inside G p → AtPoint s j p → ∃ v v', r.cell i j = val v ∧ r.cell i' j = val v' ∧ |v - v'| ≤ e := by
  obtain ⟨r, e, h1, h2, h3⟩ := mli_ok cast reorder junk G hG values s hV hs hn hre
  refine ⟨r, e, h1, h2, ?_⟩
  intro i hi i' hi' e hnum j hj p hin hat
  have hp : p.length = G.length := hin.length_eq
  rw [h3 i hi j hj p hp hat, h3 i' hi' j hj p hp hat]
  let W : Nat → List Nat → K := fun i is => match values.cell i (ravel (G.map Axis.n) is) with
    | .val v => v
    | .bad => 0
  have hW : ∀ is, Index G is → values.cell i (ravel (G.map Axis.n) is) = val (W i is) ∧
      values.cell i' (ravel (G.map Axis.n) is) = val (W i' is) ∧ |W i is - W i' is| ≤ e := by
    intro is his
    obtain ⟨v, v', hv, hv', b⟩ := hnum _ (ravel_lt _ _ his)
    have q : W i is = v := by simp only [W, hv]
    have q' : W i' is = v' := by simp only [W, hv']
    rw [q, q']
    exact ⟨hv, hv', b⟩
  rw [mlin_congr _ _ (cells_lt cast G hG.two _ hp) _ (fun is => val (W i is)) (fun is his => (hW is his).1),
    mlin_congr _ _ (cells_lt cast G hG.two _ hp) (fun is => values.cell i' (ravel (G.map Axis.n) is)) (fun is => val (W i' is))
      (fun is his => (hW is his).2.1)]
  let cs := List.zipWith (fun (g : Axis K) x => ((coord cast (val g.lo) (val g.hi) g.n (val x)).1,
    norm g.lo g.hi g.n x - ((coord cast (val g.lo) (val g.hi) g.n (val x)).1 : K))) G p
  have e1 : List.zipWith (fun g x => coord cast (val g.lo) (val g.hi) g.n (val x)) G p
      = cs.map (fun c => (c.1, val c.2)) := by
    apply List.ext_getElem
    · simp [cs]
    · intro k a1 a2
      have hk : k < G.length := by simp at a1; omega
      simp only [cs, List.getElem_zipWith, List.getElem_map]
      have hgk := hlt _ (List.getElem_mem hk)
      rw [coord_val cast _ _ _ _ hgk.ne]
  rw [e1]
  obtain ⟨v, v', m1, m2, m3⟩ := mlin_sub cs (W i) (W i')
  refine ⟨v, v', m1, m2, ?_⟩
  obtain ⟨d, d1, d2, d3⟩ := mlin_between cs (G.map Axis.n) (by
    rw [List.forall₂_iff_get]
    refine ⟨by simp [cs, hp], ?_⟩
    intro k a1 a2
    have hk : k < G.length := by simpa using a2
    have hg := List.getElem_mem hk
    obtain ⟨b1, b2⟩ := (List.forall₂_iff_get.1 hin).2 k (by omega) hk
    simp only [List.get_eq_getElem] at b1 b2
    have hw := norm_inside cast hcast _ _ _ _ (hlt _ hg) b1 b2 (hG.two _ hg) (n_lt hG hg)
    simp only [cs, List.get_eq_getElem, List.getElem_zipWith, List.getElem_map]
    refine ⟨coord_lt _ _ _ _ _ (hG.two _ hg), ?_⟩
    rw [coord_val cast _ _ _ _ (hlt _ hg).ne]
    exact hw) (fun is => W i is - W i' is) (-e) e (fun is his => abs_le.1 (hW is his).2.2)
  rw [m3, FP.val.injEq] at d1
  rw [d1, abs_le]
  exact ⟨d2, d3⟩

/-- values 0, …, 5 and their doubles differ by at most 5 -/
example : ∃ r, (mli [⟨0, 1, 2⟩, ⟨2, 4, 3⟩] ⟨2, 6, fun i k => (val (((i : ℚ) + 1) * k) : FP ℚ)⟩).interpolate trunc backwards (fun _ _ => bad)
    ⟨2, 1, fun k _ => if k = 0 then val (1 / 3) else val (7 / 2)⟩ = .ok r ∧
    ∃ v v', r.cell 0 0 = val v ∧ r.cell 1 0 = val v' ∧ |v - v'| ≤ 5 := by
  obtain ⟨r, e, _, _, h⟩ := C100_multilinear trunc trunc_ok backwards (fun _ _ => bad) [(⟨0, 1, 2⟩ : Axis ℚ), ⟨2, 4, 3⟩]
    ⟨by decide, by decide, by decide, by decide⟩ (by decide) ⟨2, 6, fun i k => (val (((i : ℚ) + 1) * k) : FP ℚ)⟩
    ⟨2, 1, fun k _ => if k = 0 then val (1 / 3) else val (7 / 2)⟩ (by decide) rfl (by decide) (backwards_ok 1)
  refine ⟨r, e, ?_⟩
  refine h 0 (by decide) 1 (by decide) 5 ?_ 0 (by decide) [1 / 3, 7 / 2] ?_ ?_
  · intro k hk
    have hk' : k < 6 := hk
    have : (k : ℚ) ≤ 5 := by exact_mod_cast (by omega : k ≤ 5)
    have h0 : (0 : ℚ) ≤ k := Nat.cast_nonneg _
    refine ⟨_, _, rfl, rfl, ?_⟩
    rw [abs_le]
    push_cast
    constructor <;> linarith
  · exact List.Forall₂.cons (by norm_num) (List.Forall₂.cons (by norm_num) List.Forall₂.nil)
  · intro k hk
    have : k = 0 ∨ k = 1 := by simp at hk; omega
    rcases this with rfl | rfl <;> rfl

end

/-- a grid of two rows and three columns, one value wrong by 1/10 -/
example (tok : Grid.TokIn Unit (FP ℚ) → Nat) := C100_grid tok true none [0, 10] [0, 1, 5] (by simp) (by norm_num) (by simp) (by simp)
  [[1, 2, 3], [4, 5, 6]] [[1, 2, 3], [4, 5.1, 6]] ⟨rfl, by simp⟩ ⟨rfl, by simp⟩ (1 / 10)
  (by
    intro i j hi hj
    simp only [List.length_cons, List.length_nil] at hi hj
    have h1 : i = 0 ∨ i = 1 := by omega
    have h2 : j = 0 ∨ j = 1 ∨ j = 2 := by omega
    rcases h1 with rfl | rfl <;> rcases h2 with rfl | rfl | rfl <;> norm_num [corner, abs_le])
  [3, 10] [0, 4.5]
  (by constructor <;> (intro z hz; simp at hz; rcases hz with rfl | rfl <;> norm_num [Grid.Inside]))

/-- components of tie points are at most the radius of the Earth -/
theorem tieR_le (lon lat : Nat → Nat → ℝ) (k i b : Nat) : |tieR lon lat k i b| ≤ 6370997 := by
  have h : ∀ u v : ℝ, |u| ≤ 1 → |v| ≤ 1 → |6370997 * u * v| ≤ 6370997 := by
    intro u v hu hv
    rw [abs_mul, abs_mul]
    have := mul_le_mul hu hv (abs_nonneg _) (by norm_num)
    norm_num
    linarith
  have c1 := fun x => abs_le.2 ⟨Real.neg_one_le_cos x, Real.cos_le_one x⟩
  have s1 := fun x => abs_le.2 ⟨Real.neg_one_le_sin x, Real.sin_le_one x⟩
  unfold tieR
  split_ifs
  · exact h _ _ (c1 _) (c1 _)
  · exact h _ _ (c1 _) (s1 _)
  · have := h _ 1 (s1 (rad (lat i b))) (by norm_num)
    rwa [mul_one] at this

/-- two swaths with other longitudes and latitudes altogether: no point of the one is further than 4.375 diameters from that of the other -/
example (junk junk') := C100_simple .km1to250 3 5 (by omega) (fun i j => 100 + (i : ℝ) / 10) (fun i j => (j : ℝ) / 10)
  (fun i j => 10 - (i : ℝ) / 10) (fun i j => 45 + (j : ℝ) / 10) (e := 2 * 6370997)
  (by
    intro k i b _ _
    have h1 := tieR_le (fun i j => 100 + (i : ℝ) / 10) (fun i j => (j : ℝ) / 10) k i b
    have h2 := tieR_le (fun i j => 10 - (i : ℝ) / 10) (fun i j => 45 + (j : ℝ) / 10) k i b
    rw [abs_le] at h1 h2 ⊢
    constructor <;> linarith) junk junk'

end Verif.Props
