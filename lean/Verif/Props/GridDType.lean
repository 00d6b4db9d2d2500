import Verif.Model.GridDType
import Verif.Props.FlGrid
import Mathlib.Algebra.Order.Floor.Ring

/-!
# C71: element types of the data of the grid and spline interpolators
-/

set_option linter.unusedSectionVars false

namespace Verif.Spec

/-- `n` is `x` without its fraction -/
def TruncOf {K : Type} [Field K] [LinearOrder K] (n : ℤ) (x : K) : Prop := |(n : K)| ≤ |x| ∧ |x - n| < 1 ∧ 0 ≤ x * n

/-- there is only one -/
theorem TruncOf.unique {K : Type} [Field K] [LinearOrder K] [IsStrictOrderedRing K] {n m : ℤ} {x : K}
    (hn : TruncOf n x) (hm : TruncOf m x) : n = m := by
  obtain ⟨a1, a2, a3⟩ := hn
  obtain ⟨b1, b2, b3⟩ := hm
  have key : ∀ {n m : ℤ} {x : K}, 0 < x → |(n : K)| ≤ |x| → |x - m| < 1 → n ≤ m := by
    intro n m x hx h1 h2
    rw [abs_of_pos hx] at h1
    have h3 := (abs_lt.1 h2).2
    have h4 := (le_abs_self _).trans h1
    have h5 : (n : K) < ((m + 1 : ℤ) : K) := by push_cast; linarith
    have h6 : n < m + 1 := by exact_mod_cast h5
    omega
  rcases lt_trichotomy x 0 with hx | rfl | hx
  · have e1 := key (n := -n) (m := -m) (x := -x) (by linarith) (by push_cast; rwa [abs_neg, abs_neg])
      (by push_cast; rw [show -x - -(m : K) = -(x - m) by ring, abs_neg]; exact b2)
    have e2 := key (n := -m) (m := -n) (x := -x) (by linarith) (by push_cast; rwa [abs_neg, abs_neg])
      (by push_cast; rw [show -x - -(n : K) = -(x - n) by ring, abs_neg]; exact a2)
    omega
  · rw [abs_zero] at a1 b1
    have e1 : (n : K) = 0 := abs_eq_zero.1 (le_antisymm a1 (abs_nonneg _))
    have e2 : (m : K) = 0 := abs_eq_zero.1 (le_antisymm b1 (abs_nonneg _))
    have e1' : n = 0 := by exact_mod_cast e1
    have e2' : m = 0 := by exact_mod_cast e2
    rw [e1', e2']
  · exact le_antisymm (key hx a1 b2) (key hx b1 a2)

/-- truncation keeps integer bounds -/
theorem TruncOf.between {K : Type} [Field K] [LinearOrder K] [IsStrictOrderedRing K] {n lo hi : ℤ} {x : K}
    (hn : TruncOf n x) (h1 : (lo : K) ≤ x) (h2 : x ≤ hi) : lo ≤ n ∧ n ≤ hi := by
  obtain ⟨a1, a2, a3⟩ := hn
  have b := abs_lt.1 a2
  rcases le_total 0 x with hx | hx
  · rw [abs_of_nonneg hx] at a1
    have c1 := (le_abs_self _).trans a1
    constructor
    · have : (lo : K) < ((n + 1 : ℤ) : K) := by push_cast; linarith
      have : lo < n + 1 := by exact_mod_cast this
      omega
    · have : (n : K) ≤ hi := c1.trans h2
      exact_mod_cast this
  · rw [abs_of_nonpos hx] at a1
    have c1 := (neg_abs_le (n : K))
    constructor
    · have : (lo : K) ≤ n := by linarith
      exact_mod_cast this
    · have : (n : K) < ((hi + 1 : ℤ) : K) := by push_cast; linarith
      have : n < hi + 1 := by exact_mod_cast this
      omega

end Verif.Spec

namespace Verif.Props
open Verif Verif.Interpolator Verif.Spec Verif.Presets Verif.Grid

/-! ### conversion element by element -/

/-- a function applied to all elements -/
def mapMat {α : Type} (f : α → α) (m : Mat α) : Mat α := m.map (List.map f)

section struct
variable {κ α : Type} [Arith α]

theorem shape_mapMat (f : α → α) {h w : Nat} {m : Mat α} (hm : Shape h w m) : Shape h w (mapMat f m) :=
  ⟨by simpa [mapMat] using hm.1, by
    intro l hl
    obtain ⟨l', hl', rfl⟩ := List.mem_map.1 hl
    simpa using hm.2 l' hl'⟩

theorem el_mapMat (f : α → α) {h w : Nat} {m : Mat α} (hm : Shape h w m) {a b : Nat} (ha : a < h) (hb : b < w) :
    el (row (mapMat f m) a) b = f (el (row m a) b) := by
  have e1 : a < m.length := by rw [hm.1]; exact ha
  have e2 : b < (m[a]).length := by rw [hm.2 _ (List.getElem_mem e1)]; exact hb
  rw [row, row, getD_of_lt _ _ e1, getD_of_lt _ _ (by simpa [mapMat] using e1), el, el, getD_of_lt _ _ e2,
    getD_of_lt _ _ (by simpa [mapMat] using e2)]
  simp only [mapMat, List.getElem_map]

theorem interpolateNumpy_astype (c : Casts α) (t : ElemType) (s : Scipy α) (ys xs : List α) :
    interpolateNumpy (s.astype c t) ys xs = (interpolateNumpy s ys xs).map (mapMat (Grid.astype c t)) := by
  unfold interpolateNumpy
  show (if s.ok ys xs = true then _ else _) = _
  split
  · simp [Except.map, mapMat, Scipy.astype, Function.comp_def]
  · rfl

theorem interpolateSlices_astype (c : Casts α) (t : ElemType) (s : Scipy α) (sl : List (Nat × Nat)) :
    interpolateSlices (s.astype c t) sl = (interpolateSlices s sl).map (mapMat (Grid.astype c t)) := by
  unfold interpolateSlices
  split
  · exact interpolateNumpy_astype ..
  · rfl

theorem mapM_map_ok {β γ δ : Type} (f : β → Except Err γ) (g : γ → δ) : ∀ l : List β,
    l.mapM (fun x => (f x).map g) = (l.mapM f).map (List.map g)
  | [] => rfl
  | a :: l => by
    rw [List.mapM_cons, List.mapM_cons, mapM_map_ok f g l]
    cases f a with
    | error e => rfl
    | ok v => cases l.mapM f <;> rfl

theorem hcat_mapMat (f : α → α) (h : Nat) : ∀ ms : List (Mat α), hcat h (ms.map (mapMat f)) = mapMat f (hcat h ms)
  | [] => by simp [hcat, mapMat]
  | m :: ms => by
    have := hcat_mapMat f h ms
    unfold hcat at this ⊢
    rw [List.map_cons, List.foldr_cons, List.foldr_cons, this]
    simp only [mapMat, List.zipWith_map_left, List.zipWith_map_right, List.map_zipWith, List.map_append]

theorem lookup_map (f : Mat α → Mat α) (g : Graph α) (key : Nat × List Nat) :
    lookup (g.map (fun p => (p.1, p.2.map f))) key = (lookup g key).map f := by
  unfold lookup
  rw [← List.map_reverse, List.find?_map]
  simp only [Function.comp_def]
  cases h : g.reverse.find? (fun p => p.1 == key) <;> rfl

theorem computeIn_map (f : α → α) (g : Graph α) (a : DaskArr α) :
    a.computeIn (g.map (fun p => (p.1, p.2.map (mapMat f)))) = (a.computeIn g).map (mapMat f) := by
  unfold DaskArr.computeIn
  have key : ∀ i : Nat, (do
      let bs ← (List.range a.cc.length).mapM (fun j => lookup (g.map (fun p => (p.1, p.2.map (mapMat f)))) (a.name, [i, j]))
      (.ok (hcat (a.rc.getD i 0) bs) : Except Err (Mat α)))
      = (do
      let bs ← (List.range a.cc.length).mapM (fun j => lookup g (a.name, [i, j]))
      (.ok (hcat (a.rc.getD i 0) bs) : Except Err (Mat α))).map (mapMat f) := by
    intro i
    simp only [lookup_map, mapM_map_ok]
    cases (List.range a.cc.length).mapM (fun j => lookup g (a.name, [i, j])) with
    | error e => rfl
    | ok bs =>
      show Except.ok _ = Except.ok _
      rw [hcat_mapMat]
  simp only [key, mapM_map_ok]
  cases (List.range a.rc.length).mapM (fun i => do
      let bs ← (List.range a.cc.length).mapM (fun j => lookup g (a.name, [i, j]))
      (.ok (hcat (a.rc.getD i 0) bs) : Except Err (Mat α))) with
  | error e => rfl
  | ok rows =>
    show Except.ok _ = Except.ok _
    congr 1
    unfold mapMat
    rw [List.map_flatten]

/-- **C71 (conversion)**: data of any element type, any conversions, any options, fine points and keyword arguments,
eager or chunked in any way: the result for data of type `t` is the double precision result converted element by element,
and the errors are the same ones. -/
theorem C71_astype (c : Casts α) (t : ElemType) (tok : TokIn κ α → Nat) (i : Single κ α) (fy fx : List α)
    (chunks : Option (List Nat × List Nat)) (kw : κ) :
    (i.astype c t).interpolate tok fy fx chunks kw
      = (i.interpolate tok fy fx chunks kw).map (fun m => m.map (List.map (Grid.astype c t))) := by
  show _ = (i.interpolate tok fy fx chunks kw).map (mapMat (Grid.astype c t))
  cases chunks with
  | none => exact interpolateNumpy_astype ..
  | some p =>
    obtain ⟨rc, cc⟩ := p
    unfold Single.interpolate interpolateDask
    simp only
    split
    · rfl
    · simp only [bind, Except.bind, DaskArr.compute]
      rw [← computeIn_map]
      have e : ∀ q, interpolateSlices ((i.astype c t).sci kw) q
          = (interpolateSlices (i.sci kw) q).map (mapMat (Grid.astype c t)) := interpolateSlices_astype c t (i.sci kw)
      simp only [e, List.map_map, Function.comp_def]
      rfl

/-- doubles are not changed -/
theorem C71_float64 (c : Casts α) (i : Single κ α) : i.astype c .float64 = i := rfl

end struct

/-- two halves in two chunks -/
example (tok : TokIn Unit (FP ℚ) → Nat) (c : Casts (FP ℚ)) := C71_astype c .integer tok
  (unitGrid false (some FP.bad)) [.val 0, .val 1] [.val 0, .val 1] (some ([1, 1], [2])) ()

/-! ### integers, exactly -/

section exact
open FP
variable {K : Type} [Field K] [LinearOrder K] [IsStrictOrderedRing K]

/-- conversion of exact numbers to integers: without the fraction; NaN becomes some integer -/
structure IntCast (c : Casts (FP K)) : Prop where
  num : ∀ x : K, ∃ n : ℤ, c.integer (val x) = val (n : K) ∧ TruncOf n x
  nan : ∃ n : ℤ, c.integer bad = val (n : K)

/-- rows of integers -/
def ints (V : List (List ℤ)) : List (List K) := V.map (List.map (fun n : ℤ => (n : K)))

theorem corner_ints (V : List (List ℤ)) (i j : Nat) : (corner (ints V) i j : K) = ((V.getD i []).getD j 0 : ℤ) := by
  unfold corner ints
  simp only [List.getD_eq_getElem?_getD, List.getElem?_map]
  cases V[i]? with
  | none => simp
  | some l =>
    simp only [Option.map_some, Option.getD_some, List.getElem?_map]
    cases l[j]? <;> simp

/-- **C71 (integers)**: integer data on strictly increasing positions (at least two in each dimension), any options, any
fine points inside the grid: construction and interpolation succeed, and every result is the bilinear function of a cell
that contains the point without its fraction (towards zero, less than one away); it stays between integer bounds of the
data, and equals the bilinear function wherever that is an integer, in particular at the tie positions. -/
theorem C71_integer (c : Casts (FP K)) (hc : IntCast c) (tok : TokIn Unit (FP K) → Nat) (be : Bool) (fill : Option (FP K))
    (Y X : List K) (hY : Y.Pairwise (· < ·)) (hX : X.Pairwise (· < ·)) (h2y : 2 ≤ Y.length) (h2x : 2 ≤ X.length)
    (V : List (List ℤ)) (hV : V.length = Y.length ∧ ∀ l ∈ V, l.length = X.length) (lo hi : ℤ)
    (hb : ∀ i j : Nat, i < Y.length → j < X.length → lo ≤ (V.getD i []).getD j 0 ∧ (V.getD i []).getD j 0 ≤ hi)
    (fy fx : List K) (hin : (∀ y ∈ fy, Inside Y y) ∧ ∀ x ∈ fx, Inside X x) :
    ∃ s r, singleGridT c .integer (fun _ => linearKernel) be fill (Y.map val) (X.map val)
        (V.map (List.map (fun n : ℤ => val (n : K)))) = .ok s ∧
      s.interpolate tok (fy.map val) (fx.map val) none () = .ok r ∧ Shape fy.length fx.length r ∧
      ∀ a (ha : a < fy.length) b (hb : b < fx.length), ∃ n : ℤ, el (row r a) b = val (n : K) ∧ lo ≤ n ∧ n ≤ hi ∧
        ∀ i (hi : i + 1 < Y.length) j (hj : j + 1 < X.length),
        Y[i] ≤ fy[a] → fy[a] ≤ Y[i + 1] → X[j] ≤ fx[b] → fx[b] ≤ X[j + 1] →
        let B := bilin Y[i] Y[i + 1] X[j] X[j + 1] (((V.getD i []).getD j 0 : ℤ) : K) (((V.getD i []).getD (j + 1) 0 : ℤ) : K)
          (((V.getD (i + 1) []).getD j 0 : ℤ) : K) (((V.getD (i + 1) []).getD (j + 1) 0 : ℤ) : K) fy[a] fx[b]
        TruncOf n B ∧ ∀ m : ℤ, B = m → n = m := by
  have hV' : Dims Y.length X.length (ints V : List (List K)) := by
    refine ⟨by simp [ints, hV.1], ?_⟩
    intro l hl
    obtain ⟨l', hl', rfl⟩ := List.mem_map.1 hl
    simp [hV.2 l' hl']
  have hvals : V.map (List.map (fun n : ℤ => (val (n : K) : FP K))) = Grid.vals (ints V) := by
    simp [Grid.vals, ints, Function.comp_def]
  obtain ⟨s, r, h1, h2, h3, h4⟩ := C54_cell_value tok be fill Y X hY hX h2y h2x (ints V) hV' fy fx (fun _ => hin)
  refine ⟨s.astype c .integer, mapMat (Grid.astype c .integer) r, ?_, ?_, ?_, ?_⟩
  · rw [singleGridT, hvals, h1]; rfl
  · rw [C71_astype, h2]; rfl
  · exact shape_mapMat _ h3
  intro a ha b hb'
  have hel : el (row (mapMat (Grid.astype c .integer) r) a) b = c.integer (el (row r a) b) := el_mapMat _ h3 ha hb'
  obtain ⟨k, hk, k1, k2⟩ := exists_cell h2y (hin.1 _ (List.getElem_mem ha))
  obtain ⟨l, hl, l1, l2⟩ := exists_cell h2x (hin.2 _ (List.getElem_mem hb'))
  have hB := h4 a ha b hb' k hk l hl k1 k2 l1 l2
  obtain ⟨n, e, hn⟩ := hc.num (bilin Y[k] Y[k + 1] X[l] X[l + 1] (corner (ints V) k l) (corner (ints V) k (l + 1))
    (corner (ints V) (k + 1) l) (corner (ints V) (k + 1) (l + 1)) fy[a] fx[b])
  have hcb : ∀ i j : Nat, i < Y.length → j < X.length → (lo : K) ≤ corner (ints V) i j ∧ corner (ints V) i j ≤ (hi : K) := by
    intro i j hi' hj'
    rw [corner_ints]
    exact_mod_cast hb i j hi' hj'
  have hbt := bilin_between (sorted_lt hY (Nat.lt_succ_self k) hk) (sorted_lt hX (Nat.lt_succ_self l) hl) k1 k2 l1 l2
    (hcb k l (by omega) (by omega)) (hcb k (l + 1) (by omega) hl) (hcb (k + 1) l hk (by omega)) (hcb (k + 1) (l + 1) hk hl)
  obtain ⟨n1, n2⟩ := hn.between hbt.1 hbt.2
  refine ⟨n, by rw [hel, hB, e], n1, n2, ?_⟩
  intro i hi' j hj' y1 y2 x1 x2
  have hB' := h4 a ha b hb' i hi' j hj' y1 y2 x1 x2
  rw [hB, FP.val.injEq] at hB'
  rw [hB'] at hn
  simp only [corner_ints] at hn
  refine ⟨hn, ?_⟩
  intro m hm
  refine TruncOf.unique hn ?_
  rw [hm]
  exact ⟨le_rfl, by simp, mul_self_nonneg _⟩

/-- conversion of rationals -/
def ratCasts : Casts (FP ℚ) where
  single x := x
  integer
    | val x => val ((if 0 ≤ x then ⌊x⌋ else ⌈x⌉ : ℤ) : ℚ)
    | bad => val 0

theorem ratCasts_ok : IntCast ratCasts where
  nan := ⟨0, by simp [ratCasts]⟩
  num x := by
    refine ⟨if 0 ≤ x then ⌊x⌋ else ⌈x⌉, rfl, ?_⟩
    split
    · next h =>
      have h1 := Int.floor_le x
      have h2 := Int.lt_floor_add_one x
      have h3 : (0 : ℚ) ≤ ⌊x⌋ := by exact_mod_cast Int.floor_nonneg.2 h
      exact ⟨by rw [abs_of_nonneg h, abs_of_nonneg h3]; exact h1, by rw [abs_lt]; constructor <;> linarith, mul_nonneg h h3⟩
    · next h =>
      rw [not_le] at h
      have h1 := Int.le_ceil x
      have h2 := Int.ceil_lt_add_one x
      have h3 : (⌈x⌉ : ℚ) ≤ 0 := by
        have : ⌈x⌉ ≤ 0 := Int.ceil_le.2 (by push_cast; exact h.le)
        exact_mod_cast this
      exact ⟨by rw [abs_of_neg h, abs_of_nonpos h3]; linarith, by rw [abs_lt]; constructor <;> linarith,
        mul_nonneg_of_nonpos_of_nonpos h.le h3⟩

/-- rows of integers at positions 0, 5, 10 -/
example (tok : TokIn Unit (FP ℚ) → Nat) := C71_integer ratCasts ratCasts_ok tok true none [0, 5, 10] [0, 4]
  (by norm_num) (by norm_num) (by simp) (by simp) [[-10, 11], [-10, 12], [11, 13]] ⟨rfl, by simp⟩ (-10) 13
  (by
    intro i j hi hj
    simp only [List.length_cons, List.length_nil] at hi hj
    have : i = 0 ∨ i = 1 ∨ i = 2 := by omega
    have : j = 0 ∨ j = 1 := by omega
    rcases ‹i = 0 ∨ i = 1 ∨ i = 2› with rfl | rfl | rfl <;> rcases ‹j = 0 ∨ j = 1› with rfl | rfl <;> decide)
  [1, 5, 7] [0, 1, 4] (by
    constructor <;> intro z hz <;> simp only [List.mem_cons, List.not_mem_nil, or_false] at hz <;>
      rcases hz with rfl | rfl | rfl <;> intro _ <;> norm_num)

/-- **C71 (no NaN in integers)**: whatever the interpolator, its options and the fine points, eager or chunked, an integer
result consists of numbers: a NaN of the interpolation (the default filling outside the grid, a NaN in the fine points) is
turned into some integer. -/
theorem C71_no_nan {κ : Type} (c : Casts (FP K)) (hc : IntCast c) (tok : TokIn κ (FP K) → Nat) (i : Single κ (FP K))
    (fy fx : List (FP K)) (chunks : Option (List Nat × List Nat)) (kw : κ) (m : Mat (FP K))
    (h : (i.astype c .integer).interpolate tok fy fx chunks kw = .ok m) :
    ∀ l ∈ m, ∀ x ∈ l, ∃ n : ℤ, x = val (n : K) := by
  rw [C71_astype] at h
  cases hi : i.interpolate tok fy fx chunks kw with
  | error e => rw [hi] at h; cases h
  | ok m' =>
    rw [hi] at h
    injection h with h
    subst h
    intro l hl x hx
    obtain ⟨l', _, rfl⟩ := List.mem_map.1 hl
    obtain ⟨y, _, rfl⟩ := List.mem_map.1 hx
    cases y with
    | val y => obtain ⟨n, e, _⟩ := hc.num y; exact ⟨n, e⟩
    | bad => exact hc.nan

/-- a point outside, filled with NaN: 0 with this conversion -/
example (tok : TokIn Unit (FP ℚ) → Nat) :
    ((unitGrid false (some bad)).astype ratCasts .integer).interpolate tok [val 7] [val 0] none () = .ok [[val 0]] := by
  rw [C71_astype]
  have : (unitGrid false (some bad)).interpolate tok [val 7] [val 0] none () = .ok [[bad]] := by rfl
  rw [this]
  rfl

end exact

/-! ### with rounding -/

section rounded
open Fl
variable {r : Rounding}

/-- conversion of doubles to integers -/
structure IntCastFl (c : Casts (Fl r)) : Prop where
  num : ∀ x : ℝ, ∃ n : ℤ, c.integer (val x) = val (n : ℝ) ∧ TruncOf n x
  nan : ∃ n : ℤ, c.integer bad = val (n : ℝ)

/-- conversion of doubles to another precision -/
structure SingleCast (q : Rounding) (c : Casts (Fl r)) : Prop where
  num : ∀ x : ℝ, c.single (val x) = val (q.rnd x)

/-- **C71 (integer ties)**: with rounding, integer data of at most `p` bits is reproduced at its tie positions. -/
theorem C71_integer_ties (c : Casts (Fl r)) (hc : IntCastFl c) (tok : TokIn Unit (Fl r) → Nat) (be : Bool)
    (fill : Option (Fl r)) (Y X : List ℝ) (hY : Y.Pairwise (· < ·)) (hX : X.Pairwise (· < ·)) (h2y : 2 ≤ Y.length)
    (h2x : 2 ≤ X.length) (V : List (List ℤ)) (hV : V.length = Y.length ∧ ∀ l ∈ V, l.length = X.length)
    (hrep : ∀ l ∈ V, ∀ v ∈ l, |v| ≤ 2 ^ r.p) :
    ∃ s m, singleGridT c .integer (fun _ => linearKernel) be fill (Y.map val) (X.map val)
        (V.map (List.map (fun n : ℤ => val (n : ℝ)))) = .ok s ∧
      s.interpolate tok (Y.map val) (X.map val) none () = .ok m ∧ Shape Y.length X.length m ∧
      ∀ i j : Nat, i < Y.length → j < X.length → el (row m i) j = val (((V.getD i []).getD j 0 : ℤ) : ℝ) := by
  have hV' : Dims Y.length X.length (ints V : List (List ℝ)) := by
    refine ⟨by simp [ints, hV.1], ?_⟩
    intro l hl
    obtain ⟨l', hl', rfl⟩ := List.mem_map.1 hl
    simp [hV.2 l' hl']
  have hvals : V.map (List.map (fun n : ℤ => (val (n : ℝ) : Fl r))) = flvals (ints V) := by
    simp [flvals, ints, Function.comp_def]
  obtain ⟨s, m, h1, h2, h3, h4⟩ := C60_grid tok be fill Y X hY hX h2y h2x (ints V) hV' (by
    intro l hl v hv
    obtain ⟨l', hl', rfl⟩ := List.mem_map.1 hl
    obtain ⟨n, hn, rfl⟩ := List.mem_map.1 hv
    exact rep_int r.hp1 (hrep l' hl' n hn))
  refine ⟨s.astype c .integer, mapMat (Grid.astype c .integer) m, ?_, ?_, shape_mapMat _ h3, ?_⟩
  · rw [singleGridT, hvals, h1]; rfl
  · rw [C71_astype, h2]; rfl
  intro i j hi hj
  rw [el_mapMat _ h3 hi hj, h4 i j hi hj, corner_ints]
  obtain ⟨n, e, hn⟩ := hc.num (((V.getD i []).getD j 0 : ℤ) : ℝ)
  show c.integer _ = _
  rw [e, TruncOf.unique hn ⟨le_rfl, by simp, mul_self_nonneg _⟩]

/-- **C71 (float32)**: float32 data (`q`), computed in a wider format (`r`) and converted back.  At the tie positions the
data comes back bit for bit, and at every fine point inside the grid the result is within `(q.u + 38 r.u) M` of the bilinear
function of the cell: the rounding of the result to float32, and a negligible rest.  `M` bounds the absolute values of the
data. -/
theorem C71_float32 (q : Rounding) (c : Casts (Fl r)) (hc : SingleCast q c) (hp : 4 ≤ r.p) (hqp : q.p ≤ r.p)
    (tok : TokIn Unit (Fl r) → Nat) (be : Bool)
    (fill : Option (Fl r)) (Y X : List ℝ) (hY : Y.Pairwise (· < ·)) (hX : X.Pairwise (· < ·)) (h2y : 2 ≤ Y.length)
    (h2x : 2 ≤ X.length) (V : List (List ℝ)) (hV : Dims Y.length X.length V) (hrep : ∀ l ∈ V, ∀ v ∈ l, Rep q.p v)
    (M : ℝ) (hM : ∀ i j : Nat, |corner V i j| ≤ M) (fy fx : List ℝ)
    (hin : (∀ y ∈ fy, Inside Y y) ∧ ∀ x ∈ fx, Inside X x) :
    ∃ s m m', singleGridT c .float32 (fun _ => linearKernel) be fill (Y.map val) (X.map val) (flvals V) = .ok s ∧
      s.interpolate tok (Y.map val) (X.map val) none () = .ok m ∧ Shape Y.length X.length m ∧
      s.interpolate tok (fy.map val) (fx.map val) none () = .ok m' ∧ Shape fy.length fx.length m' ∧
      (∀ i j : Nat, i < Y.length → j < X.length → el (row m i) j = val (corner V i j)) ∧
      ∀ a (ha : a < fy.length) b (hb : b < fx.length) i (hi : i + 1 < Y.length) j (hj : j + 1 < X.length),
        Y[i] ≤ fy[a] → fy[a] ≤ Y[i + 1] → X[j] ≤ fx[b] → fx[b] ≤ X[j + 1] →
        ∃ v, el (row m' a) b = val v ∧ Rep q.p v ∧
          |v - bilin Y[i] Y[i + 1] X[j] X[j + 1] (corner V i j) (corner V i (j + 1)) (corner V (i + 1) j)
            (corner V (i + 1) (j + 1)) fy[a] fx[b]| ≤ (q.u + 38 * r.u) * M := by
  have hrep' : ∀ {v : ℝ}, Rep q.p v → Rep r.p v := by
    rintro v ⟨k, e, hk, rfl⟩
    exact ⟨k, e, hk.trans_le (pow_le_pow_right₀ (by norm_num) hqp), rfl⟩
  obtain ⟨s, m, h1, h2, h3, h4⟩ := C60_grid tok be fill Y X hY hX h2y h2x V hV (fun l hl v hv => hrep' (hrep l hl v hv))
  obtain ⟨s', m', g1, g2, g3, g4⟩ := C61_grid tok hp be fill Y X hY hX h2y h2x V hV M hM fy fx hin
  rw [h1] at g1
  injection g1 with g1
  subst g1
  refine ⟨s.astype c .float32, mapMat (Grid.astype c .float32) m, mapMat (Grid.astype c .float32) m', ?_, ?_,
    shape_mapMat _ h3, ?_, shape_mapMat _ g3, ?_, ?_⟩
  · rw [singleGridT, h1]; rfl
  · rw [C71_astype, h2]; rfl
  · rw [C71_astype, g2]; rfl
  · intro i j hi hj
    rw [el_mapMat _ h3 hi hj, h4 i j hi hj]
    show c.single _ = _
    have hm1 : i < V.length := by rw [hV.1]; exact hi
    have hm2 : j < V[i].length := by rw [hV.2 _ (List.getElem_mem hm1)]; exact hj
    have hcr : Rep q.p (corner V i j) := by
      unfold corner
      rw [getD_of_lt _ _ hm1, getD_of_lt _ _ hm2]
      exact hrep _ (List.getElem_mem hm1) _ (List.getElem_mem hm2)
    rw [hc.num, q.rnd_rep hcr]
  · intro a ha b hb i hi j hj y1 y2 x1 x2
    obtain ⟨v, ev, hv⟩ := g4 a ha b hb i hi j hj y1 y2 x1 x2
    refine ⟨q.rnd v, ?_, q.rep v, ?_⟩
    · rw [el_mapMat _ g3 ha hb, ev]
      exact hc.num v
    have hcM : ∀ k l : Nat, k < Y.length → l < X.length → -M ≤ corner V k l ∧ corner V k l ≤ M :=
      fun k l _ _ => abs_le.1 (hM k l)
    have hbt := abs_le.2 (bilin_between (sorted_lt hY (Nat.lt_succ_self i) hi) (sorted_lt hX (Nat.lt_succ_self j) hj) y1 y2
      x1 x2 (hcM i j (by omega) (by omega)) (hcM i (j + 1) (by omega) hj) (hcM (i + 1) j hi (by omega))
      (hcM (i + 1) (j + 1) hi hj))
    obtain ⟨B, hB⟩ : ∃ B, B = bilin Y[i] Y[i + 1] X[j] X[j + 1] (corner V i j) (corner V i (j + 1)) (corner V (i + 1) j)
      (corner V (i + 1) (j + 1)) fy[a] fx[b] := ⟨_, rfl⟩
    rw [← hB] at hv hbt ⊢
    have hM0 : 0 ≤ M := (abs_nonneg _).trans hbt
    have h5 := q.abs_rnd_sub_le_u v
    have h6 : |v| ≤ M + 30 * r.u * M := by
      calc |v| = |B + (v - B)| := by ring_nf
        _ ≤ _ := (abs_add_le _ _).trans (add_le_add hbt hv)
    have hq := q.u_le
    have hq0 := q.u_pos
    have hr0 := r.u_pos
    calc |q.rnd v - B| = |(q.rnd v - v) + (v - B)| := by ring_nf
      _ ≤ q.u * (M + 30 * r.u * M) + 30 * r.u * M :=
        (abs_add_le _ _).trans (add_le_add (h5.trans (mul_le_mul_of_nonneg_left h6 hq0.le)) hv)
      _ ≤ _ := by
        have := mul_nonneg (mul_nonneg hr0.le hM0) (sub_nonneg.2 hq)
        nlinarith

/-- conversions of real numbers, with float32 -/
noncomputable def flCasts (q : Rounding) : Casts (Fl r) where
  single
    | val x => val (q.rnd x)
    | bad => bad
  integer
    | val x => val ((if 0 ≤ x then ⌊x⌋ else ⌈x⌉ : ℤ) : ℝ)
    | bad => val 0

theorem flCasts_int (q : Rounding) : IntCastFl (flCasts q : Casts (Fl r)) where
  nan := ⟨0, by simp [flCasts]⟩
  num x := by
    refine ⟨if 0 ≤ x then ⌊x⌋ else ⌈x⌉, rfl, ?_⟩
    split
    · next h =>
      have h1 := Int.floor_le x
      have h2 := Int.lt_floor_add_one x
      have h3 : (0 : ℝ) ≤ ⌊x⌋ := by exact_mod_cast Int.floor_nonneg.2 h
      exact ⟨by rw [abs_of_nonneg h, abs_of_nonneg h3]; exact h1, by rw [abs_lt]; constructor <;> linarith, mul_nonneg h h3⟩
    · next h =>
      rw [not_le] at h
      have h1 := Int.le_ceil x
      have h2 := Int.ceil_lt_add_one x
      have h3 : (⌈x⌉ : ℝ) ≤ 0 := by
        have : ⌈x⌉ ≤ 0 := Int.ceil_le.2 (by push_cast; exact h.le)
        exact_mod_cast this
      exact ⟨by rw [abs_of_neg h, abs_of_nonpos h3]; linarith, by rw [abs_lt]; constructor <;> linarith,
        mul_nonneg_of_nonpos_of_nonpos h.le h3⟩

theorem flCasts_single (q : Rounding) : SingleCast q (flCasts q : Casts (Fl r)) where
  num _ := rfl

/-- the double nearest to 1/49, times 49, is less than 1 -/
theorem rnd_49 (hp : r.p = 53) : 0 < r.rnd (49 * r.rnd (1 / 49)) ∧ r.rnd (49 * r.rnd (1 / 49)) < 1 := by
  have hpos : 0 < r.rnd (1 / 49 : ℝ) := r.rnd_pos (by norm_num)
  refine ⟨r.rnd_pos (by positivity), ?_⟩
  -- the nearest double
  have hf : Rep r.p ((5882252574524729 : ℤ) * (2 : ℝ) ^ (-58 : ℤ)) := ⟨5882252574524729, -58, by rw [hp]; norm_num, rfl⟩
  have h1 := r.near (1 / 49) _ hf
  have h64 : Rep r.p ((1 : ℤ) * (2 : ℝ) ^ (-6 : ℤ)) := ⟨1, -6, by rw [hp]; norm_num, rfl⟩
  have h2 := r.le_rnd h64 (x := 1 / 49) (by norm_num)
  obtain ⟨k, hk⟩ := (r.rep (1 / 49 : ℝ)).grid (E := -58) (by
    rw [hp, abs_of_pos hpos]
    refine le_trans (le_of_eq ?_) h2
    norm_num)
  have h3 : k ≤ 5882252574524729 := by
    by_contra hc
    have h4 : (5882252574524730 : ℤ) ≤ k := by omega
    have h5 : (5882252574524730 : ℝ) ≤ k := by exact_mod_cast h4
    rw [hk] at h1
    have h6 := (le_abs_self _).trans h1
    have h7 : |((5882252574524729 : ℤ) * (2 : ℝ) ^ (-58 : ℤ)) - 1 / 49| ≤ 0.47 * (2 : ℝ) ^ (-58 : ℤ) := by
      rw [abs_le]; constructor <;> norm_num
    have h8 := h6.trans h7
    have h9 : (5882252574524730 : ℝ) * 2 ^ (-58 : ℤ) ≤ k * 2 ^ (-58 : ℤ) := mul_le_mul_of_nonneg_right h5 (by positivity)
    norm_num at h8 h9
    linarith
  have h4 : r.rnd (1 / 49 : ℝ) ≤ 5882252574524729 * (2 : ℝ) ^ (-58 : ℤ) := by
    rw [hk]
    exact mul_le_mul_of_nonneg_right (by exact_mod_cast h3) (by positivity)
  have hf' : Rep r.p ((9007199254740991 : ℤ) * (2 : ℝ) ^ (-53 : ℤ)) := ⟨9007199254740991, -53, by rw [hp]; norm_num, rfl⟩
  have h5 := r.mono (x := 49 * r.rnd (1 / 49)) (y := 49 * (5882252574524729 * (2 : ℝ) ^ (-58 : ℤ))) (by linarith)
  have h6 := (le_abs_self _).trans (r.near (49 * (5882252574524729 * (2 : ℝ) ^ (-58 : ℤ))) _ hf')
  have h7 : |((9007199254740991 : ℤ) * (2 : ℝ) ^ (-53 : ℤ)) - 49 * (5882252574524729 * (2 : ℝ) ^ (-58 : ℤ))|
      ≤ 10 * (2 : ℝ) ^ (-58 : ℤ) := by
    rw [abs_le]; constructor <;> norm_num
  have h8 := h6.trans h7
  norm_num at h5 h8 ⊢
  linarith

/-- **C74 is false of the code** where the interpolation is an integer between ties: for integer data 0 and 49
at positions 0 and 49, in double precision with any rounding to nearest, the result at position 1 is 0, although the exact
interpolation there is 1. -/
theorem C74_negation (hp : r.p = 53) (c : Casts (Fl r)) (hc : IntCastFl c) (tok : TokIn Unit (Fl r) → Nat) (be : Bool)
    (fill : Option (Fl r)) :
    ∃ s, singleGridT c .integer (fun _ => linearKernel) be fill [val 0, val 49] [val 0, val 1]
        [[val 0, val 0], [val 49, val 49]] = .ok s ∧
      s.interpolate tok [val 1] [val 0] none () = .ok [[val 0]] ∧
      bilin (0 : ℝ) 49 0 1 0 0 49 49 1 0 = 1 := by
  have hY : ([0, 49] : List ℝ).Pairwise (· < ·) := by norm_num
  have hX : ([0, 1] : List ℝ).Pairwise (· < ·) := by norm_num
  have hV : Dims 2 2 ([[0, 0], [49, 49]] : List (List ℝ)) := ⟨rfl, by simp⟩
  have h1 := flGrid_made (r := r) be fill hY hX hV
  obtain ⟨m, g1, g2, g3⟩ := flGrid_entry tok be fill (r := r) (Y := [0, 49]) (X := [0, 1]) (by simp) (by simp)
    [[0, 0], [49, 49]] [1] [0] ⟨by intro y hy _; simp only [List.mem_singleton] at hy; subst hy; norm_num,
      by intro y hy _; simp only [List.mem_singleton] at hy; subst hy; norm_num⟩
  refine ⟨(flGrid be fill [0, 49] [0, 1] [[0, 0], [49, 49]]).astype c .integer, ?_, ?_, by norm_num [bilin]⟩
  · show (do let i ← singleGrid (fun _ => linearKernel) be fill _ _ _; _) = _
    rw [show ([val 0, val 49] : List (Fl r)) = [0, 49].map val from rfl,
      show ([val 0, val 1] : List (Fl r)) = [0, 1].map val from rfl,
      show ([[val 0, val 0], [val 49, val 49]] : Mat (Fl r)) = flvals [[0, 0], [49, 49]] from rfl, h1]
    rfl
  have hker : linearKernel ([0, 49].map val) ([0, 1].map val) (flvals [[0, 0], [49, 49]]) (val 1) (val 0)
      = (val (r.rnd (49 * r.rnd (1 / 49))) : Fl r) := by
    rw [linearKernel_fl hY hX hV (i := 0) (j := 0) (by simp) (by simp) (Or.inl rfl) (Or.inl rfl) (Or.inl rfl) (Or.inl rfl)]
    have h49 : r.rnd 49 = 49 := r.rnd_rep (by
      have := rep_int r.hp1 (m := 49) (by rw [hp]; norm_num)
      exact_mod_cast this)
    have hw : weight r 0 49 1 = r.rnd (1 / 49) := by unfold weight; simp [h49]
    have hz : weight r 0 1 0 = 0 := weight_left
    simp only [List.getElem_cons_zero, List.getElem_cons_succ, zero_add, List.getD_cons_zero, List.getD_cons_succ, hw, hz]
    rw [one_eq]
    simp [r.rnd_rep (r.rep _)]
  have hm : m = [[val (r.rnd (49 * r.rnd (1 / 49)))]] := by
    obtain ⟨s1, s2⟩ := g2
    have e := g3 0 (by simp) 0 (by simp)
    simp only [List.getElem_cons_zero] at e
    rw [hker] at e
    obtain ⟨l, rfl⟩ := List.length_eq_one_iff.1 s1
    obtain ⟨x, rfl⟩ := List.length_eq_one_iff.1 (s2 l (by simp))
    simp only [row, el, List.getD_cons_zero] at e
    rw [e]
  rw [C71_astype, show ([val 1] : List (Fl r)) = [1].map val from rfl, show ([val 0] : List (Fl r)) = [0].map val from rfl, g1, hm]
  obtain ⟨w0, w1⟩ := rnd_49 hp
  obtain ⟨n, e, hn⟩ := hc.num (r.rnd (49 * r.rnd (1 / 49)))
  have hn0 : n = 0 := TruncOf.unique hn ⟨by simp, by rw [abs_lt]; push_cast; constructor <;> linarith, by simp⟩
  show Except.ok [[c.integer _]] = _
  rw [e, hn0]
  simp

/-- doubles with float32 data -/
example (tok : TokIn Unit (Fl (Rounding.correct 53 (by norm_num))) → Nat) (be : Bool)
    (fill : Option (Fl (Rounding.correct 53 (by norm_num)))) :=
  C74_negation rfl (flCasts (Rounding.correct 24 (by norm_num))) (flCasts_int _) tok be fill

example (tok : TokIn Unit (Fl (Rounding.correct 53 (by norm_num))) → Nat) :=
  C71_integer_ties (flCasts (Rounding.correct 24 (by norm_num))) (flCasts_int _) tok true none [0, 5, 10] [0, 4]
    (by norm_num) (by norm_num) (by simp) (by simp) [[-10, 11], [-10, 12], [11, 13]] ⟨rfl, by simp⟩ (by
      show ∀ l ∈ _, ∀ v ∈ l, |v| ≤ (2 : ℤ) ^ 53
      decide)

example (tok : TokIn Unit (Fl (Rounding.correct 53 (by norm_num))) → Nat) :=
  C71_float32 (Rounding.correct 24 (by norm_num)) (flCasts (Rounding.correct 24 (by norm_num))) (flCasts_single _)
    (by norm_num [Rounding.correct]) (by norm_num [Rounding.correct]) tok true none [0, 5] [0, 4] (by norm_num) (by norm_num)
    (by simp) (by simp) [[0, 1], [1, 0]] ⟨rfl, by simp⟩ (by
      intro l hl v hv
      simp only [List.mem_cons, List.not_mem_nil, or_false] at hl
      rcases hl with rfl | rfl <;> simp only [List.mem_cons, List.not_mem_nil, or_false] at hv <;>
        rcases hv with rfl | rfl
      · exact rep_zero
      · exact rep_one (by norm_num [Rounding.correct])
      · exact rep_one (by norm_num [Rounding.correct])
      · exact rep_zero) 1 (by
      intro i j
      unfold corner
      rcases i with _ | _ | i <;> rcases j with _ | _ | j <;> simp) [1, 2] [3] ⟨by
        intro y hy _
        simp only [List.mem_cons, List.not_mem_nil, or_false] at hy
        rcases hy with rfl | rfl <;> norm_num, by
        intro y hy _
        simp only [List.mem_singleton] at hy
        subst hy; norm_num⟩

end rounded

end Verif.Props
