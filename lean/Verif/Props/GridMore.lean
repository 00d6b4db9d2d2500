import Verif.Props.GridGeo

/-!
# C54-C56: values, descending positions and construction checks of the grid interpolators
-/

set_option linter.unusedSectionVars false

namespace Verif.Spec

/-- the bilinear function on `[y0, y1] × [x0, x1]` with the given corner values -/
def bilin {K : Type} [Field K] (y0 y1 x0 x1 v00 v01 v10 v11 y x : K) : K :=
  let t := (y - y0) / (y1 - y0)
  let s := (x - x0) / (x1 - x0)
  (1 - t) * ((1 - s) * v00 + s * v01) + t * ((1 - s) * v10 + s * v11)

/-- consecutive elements increase, and are numbers (no condition on a single element) -/
def Incr {K : Type} [LT K] (p : List (FP K)) : Prop :=
  ∀ i (h : i + 1 < p.length), ∃ a b : K, p[i] = .val a ∧ p[i + 1] = .val b ∧ a < b

end Verif.Spec

namespace Verif.Props
open Verif Verif.Interpolator Verif.Spec Verif.Presets Verif.Grid FP

variable {K : Type} [Field K] [LinearOrder K] [IsStrictOrderedRing K]

/-! ### C54: values -/

/-- the grid interpolator of numbers with any options -/
def numGrid (be : Bool) (fill : Option (FP K)) (Y X : List K) (V : List (List K)) : Single Unit (FP K) :=
  ⟨Y.map val, X.map val, Grid.vals V, fun _ =>
    (⟨Y.map val, X.map val, Grid.vals V, be, fill, linearKernel⟩ : Rgi (FP K)).scipy⟩

theorem numGrid_made (be : Bool) (fill : Option (FP K)) {Y X : List K} (hY : Y.Pairwise (· < ·)) (hX : X.Pairwise (· < ·))
    {V : List (List K)} (hV : Dims Y.length X.length V) :
    singleGrid (fun _ => linearKernel) be fill (Y.map val) (X.map val) (Grid.vals V) = .ok (numGrid be fill Y X V) := by
  rw [singleGrid, mkRgi_vals _ _ _ hY hX hV]
  rfl

/-- the corners of a cell -/
def corner (V : List (List K)) (i j : Nat) : K := (V.getD i []).getD j 0

/-- `bilin` on cell `(i, j)` of a grid -/
def cellBilin (Y X : List K) (V : List (List K)) (i j : Nat) (y x : K) : K :=
  bilin (Y.getD i 0) (Y.getD (i + 1) 0) (X.getD j 0) (X.getD (j + 1) 0) (corner V i j) (corner V i (j + 1))
    (corner V (i + 1) j) (corner V (i + 1) (j + 1)) y x

theorem cellBilin_eq (Y X : List K) (V : List (List K)) (i j : Nat) (y x : K) :
    cellBilin Y X V i j y x = cellValue Y X V i j y x := rfl

/-- every point has an interval with half-open conditions, whose weights are those of any closed interval containing it -/
theorem find_cell {Z : List K} (hZ : Z.Pairwise (· < ·)) {k : Nat} (hk : k + 1 < Z.length) {z : K}
    (h1 : k = 0 ∨ Z[k] ≤ z) (h2 : k + 2 = Z.length ∨ z ≤ Z[k + 1]) :
    ∃ c, ∃ hc : c + 1 < Z.length, (c = 0 ∨ Z[c] ≤ z) ∧ (c + 2 = Z.length ∨ z < Z[c + 1]) ∧
      (c = k ∨ (c = k + 1 ∧ z = Z[k + 1])) := by
  rcases h2 with h2 | h2
  · exact ⟨k, hk, h1, Or.inl h2, Or.inl rfl⟩
  · rcases lt_or_eq_of_le h2 with h3 | h3
    · exact ⟨k, hk, h1, Or.inr h3, Or.inl rfl⟩
    · by_cases hl : k + 2 = Z.length
      · exact ⟨k, hk, h1, Or.inl hl, Or.inl rfl⟩
      · refine ⟨k + 1, by omega, Or.inr h3.ge, Or.inr ?_, Or.inr ⟨rfl, h3⟩⟩
        rw [h3]
        exact sorted_lt hZ (Nat.lt_succ_self _) (by omega)

theorem getD_at (Z : List K) {k : Nat} (hk : k < Z.length) : Z.getD k 0 = Z[k] := by simp [hk]

/-- the linear kernel on a closed cell (extended beyond the grid at the border cells) -/
theorem linearKernel_closed {Y X : List K} (hY : Y.Pairwise (· < ·)) (hX : X.Pairwise (· < ·)) {V : List (List K)}
    (hV : Dims Y.length X.length V) {i j : Nat} (hi : i + 1 < Y.length) (hj : j + 1 < X.length) {y x : K}
    (y1 : i = 0 ∨ Y[i] ≤ y) (y2 : i + 2 = Y.length ∨ y ≤ Y[i + 1]) (x1 : j = 0 ∨ X[j] ≤ x)
    (x2 : j + 2 = X.length ∨ x ≤ X[j + 1]) :
    linearKernel (Y.map val) (X.map val) (Grid.vals V) (val y) (val x) = (val (cellBilin Y X V i j y x) : FP K) := by
  obtain ⟨a, ha, a1, a2, a3⟩ := find_cell hY hi y1 y2
  obtain ⟨b, hb, b1, b2, b3⟩ := find_cell hX hj x1 x2
  rw [linearKernel_cell hY hX hV ha hb a1 a2 b1 b2, ← cellBilin_eq]
  congr 1
  have w : ∀ {Z : List K} (_ : Z.Pairwise (· < ·)) {k c : Nat} (hk : k + 1 < Z.length) {z : K},
      c = k ∨ (c = k + 1 ∧ z = Z[k + 1]) → (c = k ∨ (c = k + 1 ∧ (z - Z.getD c 0) / (Z.getD (c + 1) 0 - Z.getD c 0) = 0 ∧
        (z - Z.getD k 0) / (Z.getD (k + 1) 0 - Z.getD k 0) = 1)) := by
    intro Z hZ k c hk z h
    rcases h with h | ⟨rfl, rfl⟩
    · exact Or.inl h
    · refine Or.inr ⟨rfl, ?_, ?_⟩
      · rw [getD_at Z hk, sub_self, zero_div]
      · rw [getD_at Z hk, getD_at Z (by omega : k < Z.length)]
        exact div_self (sub_pos.2 (sorted_lt hZ (Nat.lt_succ_self k) hk)).ne'
  unfold cellBilin bilin
  rcases w hY hi a3 with rfl | ⟨rfl, t0, t1⟩ <;> rcases w hX hj b3 with rfl | ⟨rfl, s0, s1⟩
  · rfl
  · simp only [s0, s1]; ring
  · simp only [t0, t1]; ring
  · simp only [t0, t1, s0, s1]; ring

theorem interpolate_entry (tok : TokIn Unit (FP K) → Nat) (s : Single Unit (FP K)) (fy fx : List (FP K))
    (hok : (s.sci ()).ok fy fx = true) :
    ∃ r, s.interpolate tok fy fx none () = .ok r ∧ Shape fy.length fx.length r ∧
      ∀ a (ha : a < fy.length) b (hb : b < fx.length), el (row r a) b = (s.sci ()).point fy[a] fx[b] := by
  refine ⟨fy.map (fun y => fx.map (fun x => (s.sci ()).point y x)), ?_, ⟨by simp, ?_⟩, ?_⟩
  · show interpolateNumpy _ _ _ = _
    rw [interpolateNumpy, if_pos hok]
  · intro r hr; obtain ⟨y, _, rfl⟩ := List.mem_map.1 hr; simp
  · intro a ha b hb
    rw [row, getD_of_lt _ _ (by simpa using ha), List.getElem_map, el, getD_of_lt _ _ (by simpa using hb), List.getElem_map]

theorem numGrid_ok (be : Bool) (fill : Option (FP K)) {Y X : List K} (hY : 0 < Y.length) (hX : 0 < X.length)
    (V : List (List K)) {fy fx : List K} (hin : be = true → (∀ y ∈ fy, Inside Y y) ∧ ∀ x ∈ fx, Inside X x) :
    ((numGrid be fill Y X V).sci ()).ok (fy.map val) (fx.map val) = true := by
  show (!be || (fy.map (val : K → FP K)).all (fun y => (fx.map (val : K → FP K)).all (fun x => inBounds (Y.map val) y &&
    inBounds (X.map val) x))) = true
  cases be with
  | false => rfl
  | true =>
    obtain ⟨h1, h2⟩ := hin rfl
    simp only [Bool.not_true, Bool.false_or, List.all_map, List.all_eq_true, Function.comp, Bool.and_eq_true,
      inBounds_val hY, inBounds_val hX]
    exact fun y hy x hx => ⟨h1 y hy hY, h2 x hx hX⟩

/-- **C54 (values inside)**: strictly increasing positions (at least two in each dimension), an array of numbers of that
shape, any options, any fine points (inside the grid if `bounds_error`): construction and interpolation succeed, and at
every fine point in a (closed) cell of the grid the result is the bilinear function of the four corners of the cell. -/
theorem C54_cell_value (tok : TokIn Unit (FP K) → Nat) (be : Bool) (fill : Option (FP K)) (Y X : List K)
    (hY : Y.Pairwise (· < ·)) (hX : X.Pairwise (· < ·)) (h2y : 2 ≤ Y.length) (h2x : 2 ≤ X.length)
    (V : List (List K)) (hV : Dims Y.length X.length V) (fy fx : List K)
    (hin : be = true → (∀ y ∈ fy, Inside Y y) ∧ ∀ x ∈ fx, Inside X x) :
    ∃ s r, singleGrid (fun _ => linearKernel) be fill (Y.map val) (X.map val) (Grid.vals V) = .ok s ∧
      s.interpolate tok (fy.map val) (fx.map val) none () = .ok r ∧ Shape fy.length fx.length r ∧
      ∀ a (ha : a < fy.length) b (hb : b < fx.length) i (hi : i + 1 < Y.length) j (hj : j + 1 < X.length),
        Y[i] ≤ fy[a] → fy[a] ≤ Y[i + 1] → X[j] ≤ fx[b] → fx[b] ≤ X[j + 1] →
        el (row r a) b = val (bilin Y[i] Y[i + 1] X[j] X[j + 1] (corner V i j) (corner V i (j + 1)) (corner V (i + 1) j)
          (corner V (i + 1) (j + 1)) fy[a] fx[b]) := by
  obtain ⟨r, hr, hs, he⟩ := interpolate_entry tok (numGrid be fill Y X V) (fy.map val) (fx.map val)
    (numGrid_ok be fill (by omega) (by omega) V hin)
  simp only [List.length_map] at hs he
  refine ⟨_, r, numGrid_made be fill hY hX hV, hr, hs, ?_⟩
  intro a ha b hb i hi j hj y1 y2 x1 x2
  rw [he a ha b hb]
  simp only [List.getElem_map]
  have o1 := (outOfBounds_val (by omega : 0 < Y.length) fy[a]).2 ⟨(sorted_le hY (Nat.zero_le _) (by omega)).trans y1,
    y2.trans (sorted_le hY (by omega) (by omega))⟩
  have o2 := (outOfBounds_val (by omega : 0 < X.length) fx[b]).2 ⟨(sorted_le hX (Nat.zero_le _) (by omega)).trans x1,
    x2.trans (sorted_le hX (by omega) (by omega))⟩
  have k := linearKernel_closed hY hX hV hi hj (Or.inr y1) (Or.inr y2) (Or.inr x1) (Or.inr x2)
  unfold cellBilin at k
  rw [getD_at Y hi, getD_at Y (by omega : i < Y.length), getD_at X hj, getD_at X (by omega : j < X.length)] at k
  rw [← k]
  show Rgi.point (α := FP K) _ _ _ = _
  unfold Rgi.point
  cases be <;> cases fill <;> simp only [o1, o2, Bool.or_self, Bool.false_and, Bool.false_eq_true, if_false]

/-- the bilinear function stays between bounds of its corners -/
theorem bilin_between {y0 y1 x0 x1 v00 v01 v10 v11 y x lo hi : K} (hy : y0 < y1) (hx : x0 < x1) (a1 : y0 ≤ y) (a2 : y ≤ y1)
    (b1 : x0 ≤ x) (b2 : x ≤ x1) (h00 : lo ≤ v00 ∧ v00 ≤ hi) (h01 : lo ≤ v01 ∧ v01 ≤ hi) (h10 : lo ≤ v10 ∧ v10 ≤ hi)
    (h11 : lo ≤ v11 ∧ v11 ≤ hi) :
    lo ≤ bilin y0 y1 x0 x1 v00 v01 v10 v11 y x ∧ bilin y0 y1 x0 x1 v00 v01 v10 v11 y x ≤ hi := by
  have mix : ∀ {w p q : K}, 0 ≤ w → w ≤ 1 → (lo ≤ p ∧ p ≤ hi) → (lo ≤ q ∧ q ≤ hi) →
      lo ≤ (1 - w) * p + w * q ∧ (1 - w) * p + w * q ≤ hi := by
    intro w p q h0 h1 hp hq
    constructor
    · nlinarith [mul_nonneg h0 (sub_nonneg.2 hq.1), mul_nonneg (sub_nonneg.2 h1) (sub_nonneg.2 hp.1)]
    · nlinarith [mul_nonneg h0 (sub_nonneg.2 hq.2), mul_nonneg (sub_nonneg.2 h1) (sub_nonneg.2 hp.2)]
  have wt : ∀ {p q z : K}, p < q → p ≤ z → z ≤ q → 0 ≤ (z - p) / (q - p) ∧ (z - p) / (q - p) ≤ 1 := by
    intro p q z h h1 h2
    exact ⟨div_nonneg (sub_nonneg.2 h1) (sub_nonneg.2 h.le),
      (div_le_one (sub_pos.2 h)).2 (sub_le_sub_right h2 p)⟩
  obtain ⟨t0, t1⟩ := wt hy a1 a2
  obtain ⟨s0, s1⟩ := wt hx b1 b2
  exact mix t0 t1 (mix s0 s1 h00 h01) (mix s0 s1 h10 h11)

/-- every point inside lies in a closed cell -/
theorem exists_cell {Y : List K} (h2 : 2 ≤ Y.length) {y : K} (hy : Inside Y y) :
    ∃ i, ∃ h : i + 1 < Y.length, Y[i] ≤ y ∧ y ≤ Y[i + 1] := by
  obtain ⟨h0, hl⟩ := hy (by omega)
  by_contra hno
  have key : ∀ n (hn : n < Y.length), Y[n] ≤ y := by
    intro n
    induction n with
    | zero => intro _; exact h0
    | succ n ih =>
      intro hn
      have := ih (by omega)
      by_contra hlt
      exact hno ⟨n, hn, this, (not_le.1 hlt).le⟩
  exact hno ⟨Y.length - 2, by omega, key _ (by omega), by
    have e : Y.length - 2 + 1 = Y.length - 1 := by omega
    simp only [e]; exact hl⟩

/-- **C54 (range)**: inside the grid no result leaves the range of the array. -/
theorem C54_between (tok : TokIn Unit (FP K) → Nat) (be : Bool) (fill : Option (FP K)) (Y X : List K)
    (hY : Y.Pairwise (· < ·)) (hX : X.Pairwise (· < ·)) (h2y : 2 ≤ Y.length) (h2x : 2 ≤ X.length)
    (V : List (List K)) (hV : Dims Y.length X.length V) (lo hi : K)
    (hb : ∀ i j : Nat, i < Y.length → j < X.length → lo ≤ corner V i j ∧ corner V i j ≤ hi) (fy fx : List K)
    (hin : (∀ y ∈ fy, Inside Y y) ∧ ∀ x ∈ fx, Inside X x) :
    ∃ s r, singleGrid (fun _ => linearKernel) be fill (Y.map val) (X.map val) (Grid.vals V) = .ok s ∧
      s.interpolate tok (fy.map val) (fx.map val) none () = .ok r ∧ Shape fy.length fx.length r ∧
      ∀ a b : Nat, a < fy.length → b < fx.length → ∃ v, el (row r a) b = val v ∧ lo ≤ v ∧ v ≤ hi := by
  obtain ⟨s, r, hs, hr, hd, he⟩ := C54_cell_value tok be fill Y X hY hX h2y h2x V hV fy fx (fun _ => hin)
  refine ⟨s, r, hs, hr, hd, ?_⟩
  intro a b ha hb'
  obtain ⟨i, hi', y1, y2⟩ := exists_cell h2y (hin.1 _ (List.getElem_mem ha))
  obtain ⟨j, hj', x1, x2⟩ := exists_cell h2x (hin.2 _ (List.getElem_mem hb'))
  refine ⟨_, he a ha b hb' i hi' j hj' y1 y2 x1 x2, ?_⟩
  exact bilin_between (sorted_lt hY (Nat.lt_succ_self i) hi') (sorted_lt hX (Nat.lt_succ_self j) hj') y1 y2 x1 x2
    (hb i j (by omega) (by omega)) (hb i (j + 1) (by omega) hj') (hb (i + 1) j hi' (by omega)) (hb (i + 1) (j + 1) hi' hj')

/-- **C54 (outside, fill value)**: without `bounds_error` and with a fill value, fine points outside the positions (in either
dimension) get the fill value. -/
theorem C54_fill (tok : TokIn Unit (FP K) → Nat) (f : FP K) (Y X : List K)
    (hY : Y.Pairwise (· < ·)) (hX : X.Pairwise (· < ·)) (h2y : 2 ≤ Y.length) (h2x : 2 ≤ X.length)
    (V : List (List K)) (hV : Dims Y.length X.length V) (fy fx : List K) :
    ∃ s r, singleGrid (fun _ => linearKernel) false (some f) (Y.map val) (X.map val) (Grid.vals V) = .ok s ∧
      s.interpolate tok (fy.map val) (fx.map val) none () = .ok r ∧ Shape fy.length fx.length r ∧
      ∀ a (ha : a < fy.length) b (hb : b < fx.length), ¬ (Inside Y fy[a] ∧ Inside X fx[b]) → el (row r a) b = f := by
  obtain ⟨r, hr, hs, he⟩ := interpolate_entry tok (numGrid false (some f) Y X V) (fy.map val) (fx.map val)
    (numGrid_ok false _ (by omega) (by omega) V (by simp))
  simp only [List.length_map] at hs he
  refine ⟨_, r, numGrid_made _ _ hY hX hV, hr, hs, ?_⟩
  intro a ha b hb hout
  rw [he a ha b hb]
  simp only [List.getElem_map]
  show Rgi.point (⟨Y.map val, X.map val, Grid.vals V, false, some f, linearKernel⟩ : Rgi (FP K)) _ _ = _
  unfold Rgi.point
  have : (outOfBounds (Y.map val) (val fy[a] : FP K) || outOfBounds (X.map val) (val fx[b] : FP K)) = true := by
    by_contra h
    simp only [Bool.or_eq_true, not_or, Bool.not_eq_true] at h
    exact hout ⟨fun _ => (outOfBounds_val (by omega) _).1 h.1, fun _ => (outOfBounds_val (by omega) _).1 h.2⟩
  simp [this]

/-- **C54 (outside, extrapolation)**: without `bounds_error` and fill value, fine points beyond the positions get the bilinear
function of the border cell continued. -/
theorem C54_extrapolate (tok : TokIn Unit (FP K) → Nat) (Y X : List K)
    (hY : Y.Pairwise (· < ·)) (hX : X.Pairwise (· < ·)) (h2y : 2 ≤ Y.length) (h2x : 2 ≤ X.length)
    (V : List (List K)) (hV : Dims Y.length X.length V) (fy fx : List K) :
    ∃ s r, singleGrid (fun _ => linearKernel) false none (Y.map val) (X.map val) (Grid.vals V) = .ok s ∧
      s.interpolate tok (fy.map val) (fx.map val) none () = .ok r ∧ Shape fy.length fx.length r ∧
      ∀ a (ha : a < fy.length) b (hb : b < fx.length) i (hi : i + 1 < Y.length) j (hj : j + 1 < X.length),
        (i = 0 ∨ Y[i] ≤ fy[a]) → (i + 2 = Y.length ∨ fy[a] ≤ Y[i + 1]) →
        (j = 0 ∨ X[j] ≤ fx[b]) → (j + 2 = X.length ∨ fx[b] ≤ X[j + 1]) →
        el (row r a) b = val (bilin Y[i] Y[i + 1] X[j] X[j + 1] (corner V i j) (corner V i (j + 1)) (corner V (i + 1) j)
          (corner V (i + 1) (j + 1)) fy[a] fx[b]) := by
  obtain ⟨r, hr, hs, he⟩ := interpolate_entry tok (numGrid false none Y X V) (fy.map val) (fx.map val)
    (numGrid_ok false none (by omega) (by omega) V (by simp))
  simp only [List.length_map] at hs he
  refine ⟨_, r, numGrid_made _ _ hY hX hV, hr, hs, ?_⟩
  intro a ha b hb i hi j hj y1 y2 x1 x2
  rw [he a ha b hb]
  simp only [List.getElem_map]
  have k := linearKernel_closed hY hX hV hi hj y1 y2 x1 x2
  unfold cellBilin at k
  rw [getD_at Y hi, getD_at Y (by omega : i < Y.length), getD_at X hj, getD_at X (by omega : j < X.length)] at k
  exact k

/-- a fine coordinate that is not a number gives no number -/
theorem linearKernel_bad (gy gx : List (FP K)) (v : Mat (FP K)) {y x : FP K} (h : y = bad ∨ x = bad) :
    linearKernel gy gx v y x = bad := by
  unfold linearKernel
  rcases h with rfl | rfl <;> simp

/-- **C54 (NaN coordinates)**: a fine point with a coordinate that is not a number gives no number (also where a fill value is
set) without `bounds_error`, and is a ValueError with it. -/
theorem C54_nan (tok : TokIn Unit (FP K) → Nat) (fill : Option (FP K)) (Y X : List K)
    (hY : Y.Pairwise (· < ·)) (hX : X.Pairwise (· < ·))
    (V : List (List K)) (hV : Dims Y.length X.length V) (fy fx : List (FP K)) :
    (∃ s r, singleGrid (fun _ => linearKernel) false fill (Y.map val) (X.map val) (Grid.vals V) = .ok s ∧
      s.interpolate tok fy fx none () = .ok r ∧ Shape fy.length fx.length r ∧
      ∀ a (ha : a < fy.length) b (hb : b < fx.length), fy[a] = bad ∨ fx[b] = bad → el (row r a) b = bad) ∧
    (∃ s, singleGrid (fun _ => linearKernel) true fill (Y.map val) (X.map val) (Grid.vals V) = .ok s ∧
      ∀ a (ha : a < fy.length) b (hb : b < fx.length), fy[a] = bad ∨ fx[b] = bad →
        s.interpolate tok fy fx none () = .error .valueError) := by
  constructor
  · obtain ⟨r, hr, hs, he⟩ := interpolate_entry tok (numGrid false fill Y X V) fy fx rfl
    refine ⟨_, r, numGrid_made _ _ hY hX hV, hr, hs, ?_⟩
    intro a ha b hb h
    rw [he a ha b hb]
    show Rgi.point (α := FP K) _ _ _ = _
    unfold Rgi.point
    cases fill with
    | none => exact linearKernel_bad _ _ _ h
    | some f =>
      have : (Arith.eq fy[a] fy[a] && Arith.eq fx[b] fx[b]) = false := by
        rcases h with h | h <;> rw [h] <;> simp
      rw [Bool.and_assoc] at *
      simp only [this, Bool.and_false, Bool.false_eq_true, if_false]
      exact linearKernel_bad _ _ _ h
  · refine ⟨_, numGrid_made _ _ hY hX hV, ?_⟩
    intro a ha b hb h
    show interpolateNumpy _ _ _ = _
    rw [interpolateNumpy, if_neg]
    show ¬ (!true || fy.all (fun y => fx.all (fun x => inBounds (Y.map val) y && inBounds (X.map val) x))) = true
    simp only [Bool.not_true, Bool.false_or, List.all_eq_true, Bool.and_eq_true]
    intro hall
    have := hall _ (List.getElem_mem ha) _ (List.getElem_mem hb)
    have nb : ∀ Z : List K, inBounds (Z.map val) (bad : FP K) = false := by
      intro Z
      unfold inBounds
      split <;> simp
    rcases h with h | h <;> rw [h] at this <;> simp [nb] at this

/-- three by two positions; the fine points lie inside and on a border between cells -/
example (tok : TokIn Unit (FP ℚ) → Nat) := C54_cell_value tok true none [0, 5, 10] [0, 4] (by norm_num) (by norm_num)
  (by simp) (by simp) [[10, 11], [10, 12], [11, 13]] ⟨rfl, by simp⟩ [0, 5 / 2, 5] [0, 1, 4] (by
    intro _
    constructor <;> intro y hy _ <;> simp only [List.mem_cons, List.not_mem_nil, or_false] at hy <;>
      rcases hy with rfl | rfl | rfl <;> norm_num)

example (tok : TokIn Unit (FP ℚ) → Nat) := C54_between tok false (some bad) [0, 5, 10] [0, 4] (by norm_num) (by norm_num)
  (by simp) (by simp) [[10, 11], [10, 12], [11, 13]] ⟨rfl, by simp⟩ 10 13 (by
    intro i j hi hj
    simp only [List.length_cons, List.length_nil] at hi hj
    have h1 : i = 0 ∨ i = 1 ∨ i = 2 := by omega
    have h2 : j = 0 ∨ j = 1 := by omega
    rcases h1 with rfl | rfl | rfl <;> rcases h2 with rfl | rfl <;> norm_num [corner]) [0, 5 / 2, 5] [0, 1, 4] (by
    constructor <;> intro y hy _ <;> simp only [List.mem_cons, List.not_mem_nil, or_false] at hy <;>
      rcases hy with rfl | rfl | rfl <;> norm_num)

example (tok : TokIn Unit (FP ℚ) → Nat) := C54_fill tok (val 7) [0, 5, 10] [0, 4] (by norm_num) (by norm_num)
  (by simp) (by simp) [[10, 11], [10, 12], [11, 13]] ⟨rfl, by simp⟩ [-1, 5 / 2] [0, 9]

example (tok : TokIn Unit (FP ℚ) → Nat) := C54_extrapolate tok [0, 5, 10] [0, 4] (by norm_num) (by norm_num)
  (by simp) (by simp) [[10, 11], [10, 12], [11, 13]] ⟨rfl, by simp⟩ [-1, 5 / 2] [0, 9]

example (tok : TokIn Unit (FP ℚ) → Nat) := C54_nan tok (some (val 7)) [0, 5, 10] [0, 4] (by norm_num) (by norm_num)
  [[10, 11], [10, 12], [11, 13]] ⟨rfl, by simp⟩ [bad, val 1] [val 0, bad]

/-! ### C55: descending positions -/

theorem not_strictInc_reverse {Y : List K} (hY : Y.Pairwise (· < ·)) (h2 : 2 ≤ Y.length) :
    strictInc ((Y.map (val : K → FP K)).reverse) = false := by
  rw [← List.map_reverse, Bool.eq_false_iff]
  intro h
  have h' := (strictInc_val _).1 h
  rw [List.pairwise_reverse] at h'
  have a := List.pairwise_iff_getElem.1 hY 0 1 (by omega) (by omega) (by omega)
  have b := List.pairwise_iff_getElem.1 h' 0 1 (by omega) (by omega) (by omega)
  exact absurd a (not_lt.2 b.le)

/-- the direction test of increasing positions and of the same positions reversed -/
theorem direction_inc {Y : List K} (hY : Y.Pairwise (· < ·)) : direction (Y.map (val : K → FP K)) = .ok false := by
  unfold direction
  rw [if_pos ((strictInc_val Y).2 hY)]

theorem direction_dec {Y : List K} (hY : Y.Pairwise (· < ·)) (h2 : 2 ≤ Y.length) :
    direction (Y.map (val : K → FP K)).reverse = .ok true := by
  unfold direction
  rw [if_neg (by rw [not_strictInc_reverse hY h2]; simp), List.reverse_reverse, if_pos ((strictInc_val Y).2 hY)]

/-- reverse the rows if `b` -/
def flip {β : Type} (b : Bool) (l : List β) : List β := if b then l.reverse else l

theorem direction_flip {Y : List K} (hY : Y.Pairwise (· < ·)) (h2 : 2 ≤ Y.length) (b : Bool) :
    direction (flip b (Y.map (val : K → FP K))) = .ok b := by
  cases b
  · exact direction_inc hY
  · exact direction_dec hY h2

theorem flip_flip {β : Type} (b : Bool) (l : List β) : flip b (flip b l) = l := by cases b <;> simp [flip]

theorem flip_length {β : Type} (b : Bool) (l : List β) : (flip b l).length = l.length := by cases b <;> simp [flip]

theorem flip_false {β : Type} : (flip false : List β → List β) = id := by funext l; rfl

theorem flip_true {β : Type} : (flip true : List β → List β) = List.reverse := by funext l; rfl

theorem mkRgi_flip (kernel : List (FP K) → List (FP K) → Mat (FP K) → FP K → FP K → FP K) (be : Bool) (fill : Option (FP K))
    {Y X : List K} (hY : Y.Pairwise (· < ·)) (hX : X.Pairwise (· < ·)) (h2y : 2 ≤ Y.length) (h2x : 2 ≤ X.length)
    (V : Mat (FP K)) (by' bx : Bool) :
    mkRgi kernel be fill (flip by' (Y.map val)) (flip bx (X.map val)) (flip by' (V.map (flip bx)))
      = mkRgi kernel be fill (Y.map val) (X.map val) V := by
  have sh : ((flip by' (V.map (flip bx))).length = (flip by' (Y.map (val : K → FP K))).length ∧
      (flip by' (V.map (flip bx))).all (fun r => r.length == (flip bx (X.map (val : K → FP K))).length) = true)
      ↔ (V.length = (Y.map (val : K → FP K)).length ∧ V.all (fun r => r.length == (X.map (val : K → FP K)).length) = true) := by
    simp only [flip_length, List.length_map]
    cases by' <;> cases bx <;> simp [flip_false, flip_true]
  unfold mkRgi
  rw [direction_flip hY h2y, direction_flip hX h2x, direction_inc hY, direction_inc hX]
  simp only [bind, Except.bind]
  by_cases hs : (V.length = (Y.map (val : K → FP K)).length ∧ V.all (fun r => r.length == (X.map (val : K → FP K)).length) = true)
  · rw [if_neg (not_not.2 (sh.2 hs)), if_neg (not_not.2 hs)]
    cases by' <;> cases bx <;> simp [flip_false, flip_true]
  · rw [if_pos (fun h => hs (sh.1 h)), if_pos hs]

/-- **C55**: for strictly increasing positions (at least two in each dimension), an array of any shape and content, any
options and method: giving the positions of either dimension in descending order together with the array flipped in that
dimension is refused exactly when the original is, and interpolates any fine points to the same result. -/
theorem C55_descending {κ : Type} (tok tok' : TokIn κ (FP K) → Nat)
    (kernel : κ → List (FP K) → List (FP K) → Mat (FP K) → FP K → FP K → FP K) (be : Bool) (fill : Option (FP K))
    (Y X : List K) (hY : Y.Pairwise (· < ·)) (hX : X.Pairwise (· < ·)) (h2y : 2 ≤ Y.length) (h2x : 2 ≤ X.length)
    (V : Mat (FP K)) (fy fx : List (FP K)) (kw : κ) (by' bx : Bool) :
    (singleGrid kernel be fill (flip by' (Y.map val)) (flip bx (X.map val)) (flip by' (V.map (flip bx)))
        >>= fun s => s.interpolate tok fy fx none kw)
      = (singleGrid kernel be fill (Y.map val) (X.map val) V >>= fun s => s.interpolate tok' fy fx none kw) := by
  unfold singleGrid
  rw [mkRgi_flip _ be fill hY hX h2y h2x V by' bx]
  cases mkRgi linearKernel be fill (Y.map val) (X.map val) V with
  | error e => rfl
  | ok r => rfl

/-- rows 10, 5, 0 and columns 0, 4 -/
example (tok : TokIn Unit (FP ℚ) → Nat) := C55_descending tok tok (fun _ => linearKernel) true none [0, 5, 10] [0, 4]
  (by norm_num) (by norm_num) (by simp) (by simp) [[val 10, val 11], [bad, val 12], [val 11, val 13]] [val (5 / 2)]
  [val 1, bad] () true false

/-! ### C56: construction -/

theorem strictInc_iff (p : List (FP K)) : strictInc p = true ↔ Incr p := by
  induction p with
  | nil => simp [strictInc, Incr]
  | cons a l ih =>
    cases l with
    | nil => simp [strictInc, Incr]
    | cons b l =>
      rw [strictInc, Bool.and_eq_true, ih]
      constructor
      · rintro ⟨h1, h2⟩ i hi
        cases i with
        | zero =>
          cases a with
          | bad => simp at h1
          | val a =>
            cases b with
            | bad => simp at h1
            | val b => exact ⟨a, b, rfl, rfl, by simpa using h1⟩
        | succ i => exact h2 i (by simpa using hi)
      · intro h
        constructor
        · obtain ⟨x, y, hx, hy, hlt⟩ := h 0 (by simp)
          simp only [List.getElem_cons_zero, List.getElem_cons_succ, zero_add] at hx hy
          rw [hx, hy]
          simpa using hlt
        · intro i hi
          exact h (i + 1) (by simpa using hi)

/-- **C56 (grid)**: a grid interpolator is built if and only if the positions of each dimension increase strictly or decrease
strictly and the array has one row per row position and one column per column position; otherwise the construction is a
`ValueError`. -/
theorem C56_grid {κ : Type} (kernel : κ → List (FP K) → List (FP K) → Mat (FP K) → FP K → FP K → FP K) (be : Bool)
    (fill : Option (FP K)) (py px : List (FP K)) (V : Mat (FP K)) :
    (((Incr py ∨ Incr py.reverse) ∧ (Incr px ∨ Incr px.reverse) ∧ Shape py.length px.length V) →
      ∃ s, singleGrid kernel be fill py px V = .ok s ∧ s.py = py ∧ s.px = px ∧ s.values = V) ∧
    (¬ ((Incr py ∨ Incr py.reverse) ∧ (Incr px ∨ Incr px.reverse) ∧ Shape py.length px.length V) →
      singleGrid kernel be fill py px V = .error .valueError) := by
  have dir : ∀ p : List (FP K), ((Incr p ∨ Incr p.reverse) → ∃ b, direction p = .ok b) ∧
      (¬ (Incr p ∨ Incr p.reverse) → direction p = .error .valueError) := by
    intro p
    unfold direction
    rw [← strictInc_iff, ← strictInc_iff]
    constructor
    · rintro (h | h)
      · exact ⟨false, by rw [if_pos h]⟩
      · by_cases h' : strictInc p = true
        · exact ⟨false, by rw [if_pos h']⟩
        · exact ⟨true, by rw [if_neg h', if_pos h]⟩
    · intro h
      rw [not_or] at h
      rw [if_neg h.1, if_neg h.2]
  have sh : (V.length = py.length ∧ V.all (fun r => r.length == px.length) = true) ↔ Shape py.length px.length V := by
    simp [Shape, List.all_eq_true]
  constructor
  · rintro ⟨h1, h2, h3⟩
    obtain ⟨b1, e1⟩ := (dir py).1 h1
    obtain ⟨b2, e2⟩ := (dir px).1 h2
    unfold singleGrid mkRgi
    simp only [e1, e2, bind, Except.bind]
    rw [if_neg (not_not.2 (sh.2 h3))]
    exact ⟨_, rfl, rfl, rfl, rfl⟩
  · intro h
    unfold singleGrid mkRgi
    by_cases h1 : Incr py ∨ Incr py.reverse
    · obtain ⟨b1, e1⟩ := (dir py).1 h1
      by_cases h2 : Incr px ∨ Incr px.reverse
      · obtain ⟨b2, e2⟩ := (dir px).1 h2
        simp only [e1, e2, bind, Except.bind]
        rw [if_pos (fun h3 => h ⟨h1, h2, sh.1 h3⟩)]
      · simp only [e1, (dir px).2 h2, bind, Except.bind]
    · simp only [(dir py).2 h1, bind, Except.bind]

/-- **C56 (spline)**: a spline interpolator is built if and only if the positions of each dimension increase strictly, are
more than the order of the spline in that dimension, and match the array; otherwise the construction is a `ValueError`. -/
theorem C56_spline (S : SplLib (FP K)) (kx ky : Nat) (py px : List (FP K)) (V : Mat (FP K)) :
    ((Incr py ∧ Incr px ∧ Shape py.length px.length V ∧ kx < py.length ∧ ky < px.length) →
      ∃ s, singleSpline S kx ky py px V = .ok s ∧ s.py = py ∧ s.px = px ∧ s.values = V) ∧
    (¬ (Incr py ∧ Incr px ∧ Shape py.length px.length V ∧ kx < py.length ∧ ky < px.length) →
      singleSpline S kx ky py px V = .error .valueError) := by
  have e : (strictInc py && strictInc px && (V.length == py.length) && V.all (fun r => r.length == px.length)
      && decide (kx < py.length) && decide (ky < px.length)) = true ↔
      (Incr py ∧ Incr px ∧ Shape py.length px.length V ∧ kx < py.length ∧ ky < px.length) := by
    simp only [Bool.and_eq_true, strictInc_iff, beq_iff_eq, List.all_eq_true, decide_eq_true_eq, Shape]
    tauto
  unfold singleSpline mkSpline
  constructor
  · intro h
    rw [if_pos (e.2 h)]
    exact ⟨_, rfl, rfl, rfl, rfl⟩
  · intro h
    rw [if_neg (fun h' => h (e.1 h'))]
    rfl

/-- **C56 (geographic data, one argument)**: a single array (which has no cartesian coordinates) is an `AttributeError`, for
every interpolator class. -/
theorem C56_single_array {κ α : Type} [Trig α] (make : Mat α → Except Err (Single κ α)) (m : Mat α) :
    mkGeo make [.array m] = .error .attributeError := rfl

/-- three descending rows, two ascending columns -/
example : ∃ s, singleGrid (fun _ : Unit => linearKernel) true none [val 10, val 5, val (0 : ℚ)] [val 0, val 4]
    [[val 1, bad], [val 2, val 3], [val 4, val 5]] = .ok s :=
  ((C56_grid _ true none _ _ _).1 ⟨Or.inr (by
    rw [← strictInc_iff]; decide +kernel), Or.inl (by rw [← strictInc_iff]; decide +kernel), rfl, by simp⟩).imp (fun _ h => h.1)

/-- order 1 with two positions is accepted, order 2 is not -/
example : (∃ s, singleSpline (fun _ _ _ x => x) 1 1 [val 0, val (5 : ℚ)] [val 0, val 4] [[val 1, bad], [val 2, val 3]] = .ok s) ∧
    singleSpline (fun _ _ _ x => x) 1 2 [val 0, val (5 : ℚ)] [val 0, val 4] [[val 1, bad], [val 2, val 3]]
      = .error .valueError :=
  ⟨((C56_spline _ 1 1 _ _ _).1 ⟨by rw [← strictInc_iff]; decide +kernel, by rw [← strictInc_iff]; decide +kernel,
    ⟨rfl, by simp⟩, by simp, by simp⟩).imp (fun _ h => h.1), (C56_spline _ 1 2 _ _ _).2 (by simp)⟩

end Verif.Props
