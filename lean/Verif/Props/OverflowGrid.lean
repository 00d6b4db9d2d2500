import Verif.Props.OverflowVii
import Verif.Props.FlGrid
import Verif.Props.GridGeo

/-!
# C107: no overflow in the linear grid interpolator
-/

namespace Verif.Props
open Verif Verif.Grid Verif.Interpolator Verif.Presets Verif.Geo Verif.Ov Verif.Err

/-! ### any arithmetic -/

section
variable {β : Type} [Arith β]

/-- construction and evaluation at points inside an ascending grid -/
private theorem grid_run (tok : TokIn Unit β → Nat) (be : Bool) (fill : Option β) {py px : List β} {v : Mat β} {fy fx : List β}
    (h1 : strictInc py = true) (h2 : strictInc px = true) (hv : v.length = py.length ∧ v.all (fun l => l.length == px.length) = true)
    (hb : (∀ y ∈ fy, inBounds py y = true ∧ outOfBounds py y = false) ∧ ∀ x ∈ fx, inBounds px x = true ∧ outOfBounds px x = false) :
    ∃ s, singleGrid (fun _ => linearKernel) be fill py px v = .ok s ∧
      s.interpolate tok fy fx none () = .ok (fy.map (fun y => fx.map (fun x => linearKernel py px v y x))) := by
  refine ⟨⟨py, px, v, fun _ => (⟨py, px, v, be, fill, linearKernel⟩ : Rgi β).scipy⟩, ?_, ?_⟩
  · rw [singleGrid]
    unfold mkRgi direction
    rw [if_pos h1, if_pos h2]
    simp only [bind, Except.bind]
    rw [if_neg (not_not.2 hv)]
    rfl
  · show interpolateNumpy (⟨py, px, v, be, fill, linearKernel⟩ : Rgi β).scipy fy fx = _
    have hok : (⟨py, px, v, be, fill, linearKernel⟩ : Rgi β).scipy.ok fy fx = true := by
      show (!be || fy.all (fun y => fx.all (fun x => inBounds py y && inBounds px x))) = true
      cases be with
      | false => rfl
      | true =>
        simp only [Bool.not_true, Bool.false_or, List.all_eq_true, Bool.and_eq_true]
        exact fun y hy x hx => ⟨(hb.1 y hy).1, (hb.2 x hx).1⟩
    rw [interpolateNumpy, if_pos hok]
    congr 1
    refine List.map_congr_left (fun y hy => List.map_congr_left (fun x hx => ?_))
    have o1 := (hb.1 y hy).2
    have o2 := (hb.2 x hx).2
    show Rgi.point _ _ _ = _
    unfold Rgi.point
    cases be <;> cases fill <;> simp only [o1, o2, Bool.or_self, Bool.false_and, Bool.false_eq_true, if_false]

end

/-! ### the kernel -/

variable {r : Rounding} {ε : ℝ} {h : LibRel r ε} {hε : ε ≤ 1 / 100} {L : Limit (Fl.approx h hε)}

/-- the weight of a point inside an interval, and one minus it -/
private theorem weight_same (hL : (10 : ℝ) ^ 37 ≤ L.bound) {a b y B : ℝ} (hab : a < b) (h1 : a ≤ y) (h2 : y ≤ b) (ha : |a| ≤ B) (hb : |b| ≤ B)
    (hB : 2.5 * B ≤ L.bound) :
    Same ((mk (.val y) - mk (.val a)) / (mk (.val b) - mk (.val a)) : Ov L) ((.val y - .val a) / (.val b - .val a)) 1 ∧
    Same (1 - (mk (.val y) - mk (.val a)) / (mk (.val b) - mk (.val a)) : Ov L) (1 - (.val y - .val a) / (.val b - .val a)) 1 := by
  have hy : |y| ≤ B := by
    rw [abs_le] at ha hb ⊢
    exact ⟨ha.1.trans h1, h2.trans hb.2⟩
  have m {x : ℝ} (hx : |x| ≤ B) : Same (mk (.val x) : Ov L) (.val x) B := Same.input (by rw [(Fl.approx h hε).mag_some rfl]; exact hx)
  have one : (1 : ℝ) ≤ L.bound := le_trans (by norm_num) hL
  obtain ⟨w0, w1⟩ := weight_range (r := r) hab h1 h2
  have d1 : Same (mk (.val y) - mk (.val a) : Ov L) (.val y - .val a) (2.5 * B) := (m hy).sub (m ha) (by linarith) hB
  have d2 : Same (mk (.val b) - mk (.val a) : Ov L) (.val b - .val a) (2.5 * B) := (m hb).sub (m ha) (by linarith) hB
  have e1 : Same ((mk (.val y) - mk (.val a)) / (mk (.val b) - mk (.val a)) : Ov L) ((.val y - .val a) / (.val b - .val a)) 1 := by
    refine d1.div' d2 ?_ one
    rw [weight_val _ hab.ne, (Fl.approx h hε).mag_some rfl, abs_of_nonneg w0]
    exact w1
  refine ⟨e1, ?_⟩
  have s1 : (1 : Ov L) = mk (1 : Fl r) := (Same.ofNat (L := L) 1 (C := 2) (by norm_num) (le_trans (by norm_num) hL)).eq'
  rw [s1, e1.eq']
  refine clip_same (x := (1 - (.val y - .val a) / (.val b - .val a) : Fl r)) ?_ one
  rw [weight_val _ hab.ne, Fl.one_eq, Fl.val_sub, (Fl.approx h hε).mag_some rfl]
  exact r.rnd_abs_le (rep_one r.hp1) (by rw [abs_of_nonneg (by linarith)]; linarith)

private theorem elem_same (hL : (10 : ℝ) ^ 37 ≤ L.bound) {V : Mat (Fl r)} {M : ℝ} (hM : 0 ≤ M) (hV : ∀ row ∈ V, ∀ x ∈ row, (Fl.approx h hε).mag x ≤ M)
    (i j : Nat) : Same (elem (V.map (·.map mk) : Mat (Ov L)) i j) (elem V i j) M := by
  have e : (V.map (·.map mk) : Mat (Ov L)).getD i [] = (V.getD i []).map mk := by
    rw [List.getD_eq_getElem?_getD, List.getD_eq_getElem?_getD, List.getElem?_map]
    cases V[i]? <;> rfl
  refine ⟨?_, ?_⟩
  · unfold elem
    rw [e]
    exact mk_getD hL _ _
  · refine getD_mag hM ?_ j
    intro x hx
    by_cases hi : i < V.length
    · rw [List.getD_eq_getElem?_getD, List.getElem?_eq_getElem hi, Option.getD_some] at hx
      exact hV _ (List.getElem_mem hi) x hx
    · rw [List.getD_eq_getElem?_getD, List.getElem?_eq_none (by omega), Option.getD_none] at hx
      simp at hx

/-- the weighted sum of the corners at a point inside the grid -/
private theorem kernel_same (hL : (10 : ℝ) ^ 37 ≤ L.bound) {Y X : List ℝ} (hY : Y.Pairwise (· < ·)) (hX : X.Pairwise (· < ·)) (h2y : 2 ≤ Y.length)
    (h2x : 2 ≤ X.length) {B : ℝ} (hB : 2.5 * B ≤ L.bound) (bY : ∀ y ∈ Y, |y| ≤ B) (bX : ∀ x ∈ X, |x| ≤ B) {V : Mat (Fl r)} {M : ℝ} (hM0 : 0 ≤ M)
    (hM : 12 * M ≤ L.bound) (hV : ∀ row ∈ V, ∀ x ∈ row, (Fl.approx h hε).mag x ≤ M) {y x : ℝ} (hy : Inside Y y) (hx : Inside X x) :
    Same (linearKernel (α := Ov L) ((Y.map .val).map mk) ((X.map .val).map mk) (V.map (·.map mk)) (mk (.val y)) (mk (.val x)))
      (linearKernel (Y.map .val) (X.map .val) V (.val y) (.val x)) (12 * M) := by
  have cell {Z : List ℝ} (hZ : Z.Pairwise (· < ·)) (h2 : 2 ≤ Z.length) {z : ℝ} (hz : Inside Z z) (bZ : ∀ z ∈ Z, |z| ≤ B) :
      ∃ i, ∃ hi : i + 1 < Z.length, interval (Z.map .val) (.val z : Fl r) = i ∧
        interval (α := Ov L) ((Z.map .val).map mk) (mk (.val z)) = i ∧
        Same ((mk (.val z) - mk (.val Z[i])) / (mk (.val Z[i + 1]) - mk (.val Z[i])) : Ov L) ((.val z - .val Z[i]) / (.val Z[i + 1] - .val Z[i])) 1 ∧
        Same (1 - (mk (.val z) - mk (.val Z[i])) / (mk (.val Z[i + 1]) - mk (.val Z[i])) : Ov L) (1 - (.val z - .val Z[i]) / (.val Z[i + 1] - .val Z[i])) 1 := by
    obtain ⟨k, hk, z1, z2⟩ := exists_cell h2 hz
    obtain ⟨c, hc, c1, c2, c3⟩ := find_cell hZ hk (Or.inr z1) (Or.inr z2)
    have e : interval (Z.map .val) (.val z : Fl r) = c := by rw [interval_fl]; exact interval_eq hZ hc c1 c2
    have hcz : Z[c] ≤ z ∧ z ≤ Z[c + 1] := by
      rcases c3 with rfl | ⟨rfl, e'⟩
      · exact ⟨z1, z2⟩
      · exact ⟨e'.ge, e'.le.trans (sorted_le hZ (by omega) hc)⟩
    refine ⟨c, hc, e, ?_, weight_same hL (sorted_lt hZ (Nat.lt_succ_self c) hc) hcz.1 hcz.2 (bZ _ (List.getElem_mem _)) (bZ _ (List.getElem_mem _)) hB⟩
    refine Eq.trans (congrArg (fun g => interval (α := Ov L) g (mk (.val z))) (mk_list (Z.map .val))) ?_
    exact e
  have get {Z : List ℝ} {i : Nat} (hi : i < Z.length) : ((Z.map Fl.val).map mk : List (Ov L)).getD i 0 = mk (.val Z[i]) ∧
      (Z.map Fl.val : List (Fl r)).getD i 0 = .val Z[i] := by
    constructor <;> simp [List.getD_eq_getElem?_getD, hi]
  obtain ⟨i, hi, e1, e2, t, t'⟩ := cell hY h2y hy bY
  obtain ⟨j, hj, f1, f2, s, s'⟩ := cell hX h2x hx bX
  have E := elem_same (L := L) hL hM0 hV
  unfold linearKernel
  simp only [e1, e2, f1, f2]
  rw [(get hi).1, (get hi).2, (get (Z := Y) (i := i) (by omega)).1, (get (Z := Y) (i := i) (by omega)).2, (get hj).1, (get hj).2,
    (get (Z := X) (i := j) (by omega)).1, (get (Z := X) (i := j) (by omega)).2]
  have p {v : Ov L} {w : Fl r} {a b : Ov L} {a' b' : Fl r} (hv : Same v w M) (ha : Same a a' 1) (hb : Same b b' 1) :
      Same (v * a * b) (w * a' * b') (1.5625 * M) :=
    (hv.mul ha (C := 1.25 * M) (by linarith) (by linarith)).mul hb (by linarith) (by linarith)
  exact (((p (E i j) t' s').add (p (E i (j + 1)) t' s) (C := 3.90625 * M) (by linarith) (by linarith)).add (p (E (i + 1) j) t s')
    (C := 6.8359375 * M) (by linarith) (by linarith)).add (p (E (i + 1) (j + 1)) t s) (by linarith) (by linarith)

private theorem strictInc_same {Y : List ℝ} (hY : Y.Pairwise (· < ·)) (hL : (10 : ℝ) ^ 37 ≤ L.bound) {B : ℝ} (hB : 2.5 * B ≤ L.bound)
    (bY : ∀ y ∈ Y, |y| ≤ B) : strictInc ((Y.map .val).map mk : List (Ov L)) = true := by
  induction Y with
  | nil => rfl
  | cons a Y ih =>
    cases Y with
    | nil => rfl
    | cons b Y =>
      have := ih hY.of_cons (fun y hy => bY y (by simp [hy]))
      simp only [List.map_cons, strictInc, Bool.and_eq_true] at this ⊢
      refine ⟨?_, this⟩
      have m {x : ℝ} (hx : |x| ≤ B) : Same (mk (.val x) : Ov L) (.val x) B := Same.input (by rw [(Fl.approx h hε).mag_some rfl]; exact hx)
      have d : Same (mk (.val b) - mk (.val a) : Ov L) (.val b - .val a) (2.5 * B) :=
        (m (bY b (by simp))).sub (m (bY a (by simp))) (by linarith) hB
      rw [(zero_same hL).lt d, Fl.val_sub, Fl.zero_eq, Fl.lt_val, decide_eq_true_eq]
      have hlt := (List.pairwise_cons.1 hY).1 b (by simp)
      exact r.rnd_pos (sub_pos.2 hlt)

private theorem bounds_same {Y : List ℝ} (h2 : 2 ≤ Y.length) {y : ℝ} (hy : Inside Y y) :
    (inBounds (Y.map .val) (.val y : Fl r) = true ∧ outOfBounds (Y.map .val) (.val y : Fl r) = false) ∧
    (inBounds (α := Ov L) ((Y.map .val).map mk) (mk (.val y)) = true ∧ outOfBounds (α := Ov L) ((Y.map .val).map mk) (mk (.val y)) = false) := by
  have h0 : 0 < Y.length := by omega
  have b1 := (inBounds_fl (r := r) h0 y).2 (hy h0)
  have b2 := (outOfBounds_fl (r := r) h0 y).2 (hy h0)
  refine ⟨⟨b1, b2⟩, ?_, ?_⟩
  · exact Eq.trans (congrArg (fun g => inBounds (α := Ov L) g (mk (.val y))) (mk_list (Y.map .val))) b1
  · exact Eq.trans (congrArg (fun g => outOfBounds (α := Ov L) g (mk (.val y))) (mk_list (Y.map .val))) b2

/-- the numbers of a matrix are at most `M`; it may contain NaN -/
def ModerateMat (M : ℝ) (V : Mat (Fl r)) : Prop := ∀ row ∈ V, ∀ x, Fl.val x ∈ row → |x| ≤ M

/-- a matrix, as one of the arithmetic with overflow -/
noncomputable def ovMat (L : Limit (Fl.approx h hε)) (V : Mat (Fl r)) : Mat (Ov L) := V.map (·.map mk)

/-- positions, as those of the arithmetic with overflow -/
noncomputable def ovPos (L : Limit (Fl.approx h hε)) (Y : List ℝ) : List (Ov L) := (Y.map .val).map mk

/-- both runs on one array -/
private theorem grid_same (hL : (10 : ℝ) ^ 37 ≤ L.bound) (tok : TokIn Unit (Fl r) → Nat) (tok' : TokIn Unit (Ov L) → Nat) (be : Bool) (fill : Option (Fl r))
    (fill' : Option (Ov L)) {Y X : List ℝ} (hY : Y.Pairwise (· < ·)) (hX : X.Pairwise (· < ·)) (h2y : 2 ≤ Y.length)
    (h2x : 2 ≤ X.length) {B : ℝ} (hB : 2.5 * B ≤ L.bound) (bY : ∀ y ∈ Y, |y| ≤ B) (bX : ∀ x ∈ X, |x| ≤ B) {V : Mat (Fl r)} {M : ℝ} (hM0 : 0 ≤ M)
    (hM : 12 * M ≤ L.bound) (hV : ∀ row ∈ V, ∀ x ∈ row, (Fl.approx h hε).mag x ≤ M) (hs : V.length = Y.length ∧ ∀ row ∈ V, row.length = X.length)
    {fy fx : List ℝ} (hin : (∀ y ∈ fy, Inside Y y) ∧ ∀ x ∈ fx, Inside X x) :
    ∃ s s', singleGrid (fun _ => linearKernel) be fill (Y.map .val) (X.map .val) V = .ok s ∧
      singleGrid (fun _ => linearKernel) be fill' (ovPos L Y) (ovPos L X) (ovMat L V) = .ok s' ∧
      s.interpolate tok (fy.map .val) (fx.map .val) none () =
        .ok (fy.map (fun y => fx.map (fun x => linearKernel (Y.map .val) (X.map .val) V (.val y) (.val x)))) ∧
      s'.interpolate tok' (ovPos L fy) (ovPos L fx) none () =
        .ok (fy.map (fun y => fx.map (fun x => mk (linearKernel (Y.map .val) (X.map .val) V (.val y) (.val x))))) ∧
      ∀ y ∈ fy, ∀ x ∈ fx, (Fl.approx h hε).mag (linearKernel (Y.map .val) (X.map .val) V (.val y) (.val x)) ≤ 12 * M := by
  have key (y : ℝ) (hy : y ∈ fy) (x : ℝ) (hx : x ∈ fx) := kernel_same (L := L) hL hY hX h2y h2x hB bY bX hM0 hM hV (hin.1 y hy) (hin.2 x hx)
  obtain ⟨s, a1, a2⟩ := grid_run tok be fill (v := V) (fy := fy.map .val) (fx := fx.map .val) ((strictInc_fl (r := r) Y).2 hY) ((strictInc_fl (r := r) X).2 hX)
    ⟨by simp [hs.1], by simp only [List.all_eq_true]; intro l hl; simp [hs.2 l hl]⟩
    ⟨fun y hy => by obtain ⟨z, hz, rfl⟩ := List.mem_map.1 hy; exact (bounds_same (L := L) h2y (hin.1 z hz)).1,
      fun y hy => by obtain ⟨z, hz, rfl⟩ := List.mem_map.1 hy; exact (bounds_same (L := L) h2x (hin.2 z hz)).1⟩
  obtain ⟨s', b1, b2⟩ := grid_run tok' be fill' (py := ovPos L Y) (px := ovPos L X) (v := ovMat L V) (fy := ovPos L fy) (fx := ovPos L fx)
    (strictInc_same hY hL hB bY) (strictInc_same hX hL hB bX)
    ⟨by simp [ovMat, ovPos, hs.1], by
      simp only [List.all_eq_true, ovMat, List.mem_map]
      rintro _ ⟨l, hl, rfl⟩
      simp [ovPos, hs.2 l hl]⟩
    ⟨fun y hy => by
        obtain ⟨z', hz', rfl⟩ := List.mem_map.1 hy; obtain ⟨z, hz, rfl⟩ := List.mem_map.1 hz'
        exact (bounds_same (L := L) h2y (hin.1 z hz)).2,
      fun y hy => by
        obtain ⟨z', hz', rfl⟩ := List.mem_map.1 hy; obtain ⟨z, hz, rfl⟩ := List.mem_map.1 hz'
        exact (bounds_same (L := L) h2x (hin.2 z hz)).2⟩
  refine ⟨s, s', a1, b1, ?_, ?_, fun y hy x hx => (key y hy x hx).2⟩
  · rw [a2]; simp only [List.map_map]; rfl
  · rw [b2]
    unfold ovPos
    simp only [List.map_map]
    congr 1
    refine List.map_congr_left (fun y hy => List.map_congr_left (fun x hx => ?_))
    have := (key y hy x hx).eq'
    simp only [List.map_map] at this
    exact this

private theorem magMat {M : ℝ} (hM : 0 ≤ M) {V : Mat (Fl r)} (hV : ModerateMat M V) : ∀ row ∈ V, ∀ x ∈ row, (Fl.approx h hε).mag x ≤ M := by
  intro row hrow x hx
  cases x with
  | val a => rw [(Fl.approx h hε).mag_some rfl]; exact hV row hrow a hx
  | bad => rw [(Fl.approx h hε).mag_none rfl]; exact hM

/-- **C107 (grid interpolator)**: ascending positions of at most a quarter, and an array of numbers of at most a twelfth, of the largest number of
the format (or NaN), any options and any fine points inside the grid: the interpolator can be made and gives the same numbers as in arithmetic
without overflow. -/
theorem C107_grid (h : LibRel r ε) (hε : ε ≤ 1 / 100) (maxF : ℝ) (hmax : (10 : ℝ) ^ 37 ≤ maxF) (tok : TokIn Unit (Fl r) → Nat)
    (tok' : TokIn Unit (Ov (flLimit h hε maxF)) → Nat) (be : Bool) (fill : Option (Fl r)) (fill' : Option (Ov (flLimit h hε maxF))) (Y X : List ℝ)
    (hY : Y.Pairwise (· < ·)) (hX : X.Pairwise (· < ·)) (h2y : 2 ≤ Y.length) (h2x : 2 ≤ X.length) (bY : ∀ y ∈ Y, |y| ≤ maxF / 4)
    (bX : ∀ x ∈ X, |x| ≤ maxF / 4) (V : Mat (Fl r)) (hV : ModerateMat (maxF / 12) V) (hs : V.length = Y.length ∧ ∀ row ∈ V, row.length = X.length)
    (fy fx : List ℝ) (hin : (∀ y ∈ fy, Inside Y y) ∧ ∀ x ∈ fx, Inside X x) :
    ∃ s s' m, singleGrid (fun _ => linearKernel) be fill (Y.map .val) (X.map .val) V = .ok s ∧
      singleGrid (fun _ => linearKernel) be fill' (ovPos _ Y) (ovPos _ X) (ovMat _ V) = .ok s' ∧
      s.interpolate tok (fy.map .val) (fx.map .val) none () = .ok m ∧
      s'.interpolate tok' (ovPos _ fy) (ovPos _ fx) none () = .ok (ovMat _ m) := by
  have h0 : 0 ≤ maxF := le_trans (by positivity) hmax
  obtain ⟨s, s', a1, a2, a3, a4, -⟩ := grid_same (L := flLimit h hε maxF) hmax tok tok' be fill fill' hY hX h2y h2x (B := maxF / 4)
    (by show 2.5 * (maxF / 4) ≤ maxF; linarith) bY bX (M := maxF / 12) (by positivity) (by show 12 * (maxF / 12) ≤ maxF; linarith)
    (magMat (by positivity) hV) hs hin
  refine ⟨s, s', _, a1, a2, a3, ?_⟩
  rw [a4]
  simp only [ovMat, List.map_map]
  congr 1
  refine List.map_congr_left (fun y _ => ?_)
  simp only [Function.comp, List.map_map]
  rfl

private theorem toLonLat_same (hL : (10 : ℝ) ^ 37 ≤ L.bound) (fy fx : List ℝ) (k1 k2 k3 : ℝ → ℝ → Fl r)
    (w1 : ∀ y ∈ fy, ∀ x ∈ fx, (Fl.approx h hε).mag (k1 y x) ≤ 12 * 10 ^ 8) (w2 : ∀ y ∈ fy, ∀ x ∈ fx, (Fl.approx h hε).mag (k2 y x) ≤ 12 * 10 ^ 8)
    (w3 : ∀ y ∈ fy, ∀ x ∈ fx, (Fl.approx h hε).mag (k3 y x) ≤ 12 * 10 ^ 8) :
    toLonLat [fy.map (fun y => fx.map (fun x => (mk (k1 y x) : Ov L))), fy.map (fun y => fx.map (fun x => (mk (k2 y x) : Ov L))),
        fy.map (fun y => fx.map (fun x => (mk (k3 y x) : Ov L)))] =
      .ok (ovMat L (fy.map (fun y => fx.map (fun x => (xyz2lonlat earthRadius defaultThr true (k1 y x, k2 y x, k3 y x)).1))),
        ovMat L (fy.map (fun y => fx.map (fun x => (xyz2lonlat earthRadius defaultThr true (k1 y x, k2 y x, k3 y x)).2)))) := by
  rw [toLonLat_map fy fx (fun y x => (mk (k1 y x) : Ov L)) (fun y x => (mk (k2 y x) : Ov L)) (fun y x => (mk (k3 y x) : Ov L))]
  have ht := (thr_same (L := L) hL).mono (by norm_num : (1 : ℝ) ≤ 2)
  have fin (y : ℝ) (hy : y ∈ fy) (x : ℝ) (hx : x ∈ fx) := xyz2lonlat_same (L := L) hL (radius_same hL) radius_ge ht true
    (Same.input ((w1 y hy x hx).trans (by norm_num))) (Same.input ((w2 y hy x hx).trans (by norm_num))) (Same.input ((w3 y hy x hx).trans (by norm_num)))
  have g1 : fy.map (fun y => fx.map (fun x => (xyz2lonlat (earthRadius : Ov L) defaultThr true (mk (k1 y x), mk (k2 y x), mk (k3 y x))).1)) =
      ovMat L (fy.map (fun y => fx.map (fun x => (xyz2lonlat earthRadius defaultThr true (k1 y x, k2 y x, k3 y x)).1))) := by
    simp only [ovMat, List.map_map]
    refine List.map_congr_left (fun y hy => ?_)
    simp only [Function.comp, List.map_map]
    exact List.map_congr_left (fun x hx => (fin y hy x hx).1.eq')
  have g2 : fy.map (fun y => fx.map (fun x => (xyz2lonlat (earthRadius : Ov L) defaultThr true (mk (k1 y x), mk (k2 y x), mk (k3 y x))).2)) =
      ovMat L (fy.map (fun y => fx.map (fun x => (xyz2lonlat earthRadius defaultThr true (k1 y x, k2 y x, k3 y x)).2))) := by
    simp only [ovMat, List.map_map]
    refine List.map_congr_left (fun y hy => ?_)
    simp only [Function.comp, List.map_map]
    exact List.map_congr_left (fun x hx => (fin y hy x hx).2.eq')
  rw [g1, g2]

private theorem geogrid_same (hL : (10 : ℝ) ^ 37 ≤ L.bound) (tok : TokIn Unit (Fl r) → Nat)
    (tok' : TokIn Unit (Ov L) → Nat) (be : Bool) (fill : Option (Fl r)) (fill' : Option (Ov L)) (Y X : List ℝ)
    (hY : Y.Pairwise (· < ·)) (hX : X.Pairwise (· < ·)) (h2y : 2 ≤ Y.length) (h2x : 2 ≤ X.length) {B : ℝ} (hB : 2.5 * B ≤ L.bound) (bY : ∀ y ∈ Y, |y| ≤ B)
    (bX : ∀ x ∈ X, |x| ≤ B) (lons lats : Mat (Fl r)) (h1 : ModerateMat (10 ^ 10) lons) (h2 : ModerateMat (10 ^ 10) lats)
    (s1 : lons.length = Y.length ∧ ∀ row ∈ lons, row.length = X.length) (s2 : lats.length = Y.length ∧ ∀ row ∈ lats, row.length = X.length)
    (fy fx : List ℝ) (hin : (∀ y ∈ fy, Inside Y y) ∧ ∀ x ∈ fx, Inside X x) :
    ∃ is is' lon lat, mkGeo (singleGrid (fun _ => linearKernel) be fill (Y.map .val) (X.map .val)) [.array lons, .array lats] = .ok is ∧
      mkGeo (singleGrid (fun _ => linearKernel) be fill' (ovPos L Y) (ovPos L X)) [.array (ovMat L lons), .array (ovMat L lats)] = .ok is' ∧
      interpolateGeo tok is [fy.map .val, fx.map .val] none () = .ok (lon, lat) ∧
      interpolateGeo tok' is' [ovPos L fy, ovPos L fx] none () = .ok (ovMat L lon, ovMat L lat) := by
  have m1 := magMat (h := h) (hε := hε) (by norm_num : (0 : ℝ) ≤ 10 ^ 10) h1
  have m2 := magMat (h := h) (hε := hε) (by norm_num : (0 : ℝ) ≤ 10 ^ 10) h2
  -- a cartesian coordinate of the tie points
  have tie (f : Fl r × Fl r × Fl r → Fl r) (f' : Ov L × Ov L × Ov L → Ov L) (hf : ∀ p v, Same3 (L := L) p v (10 ^ 8) → Same (f' p) (f v) (10 ^ 8)) :
      ∃ V : Mat (Fl r), V = List.zipWith (List.zipWith (fun lon lat => f (lonlat2xyz earthRadius lon lat))) lons lats ∧
        List.zipWith (List.zipWith (fun lon lat => f' (lonlat2xyz earthRadius lon lat))) (ovMat L lons) (ovMat L lats) = ovMat L V ∧
        (∀ row ∈ V, ∀ x ∈ row, (Fl.approx h hε).mag x ≤ 10 ^ 8) ∧ V.length = Y.length ∧ ∀ row ∈ V, row.length = X.length := by
    have key {row row' : List (Fl r)} (hr : row ∈ lons) (hr' : row' ∈ lats) {a b : Fl r} (ha : a ∈ row) (hb : b ∈ row') :
        Same (f' (lonlat2xyz (earthRadius : Ov L) (mk a) (mk b))) (f (lonlat2xyz earthRadius a b)) (10 ^ 8) :=
      hf _ _ (lonlat2xyz_same hL (radius_same hL) (Same.input (m1 _ hr _ ha)) (Same.input (m2 _ hr' _ hb)))
    refine ⟨_, rfl, ?_, ?_, ?_, ?_⟩
    · refine zip_same (v := List.map mk) _ _ (fun row hr row' hr' => ?_)
      exact zip_same _ _ (fun a ha b hb => (key hr hr' ha hb).eq')
    · intro row hrow x hx
      obtain ⟨r1, hr1, r2, hr2, rfl⟩ := mem_zip hrow
      obtain ⟨a, ha, b, hb, rfl⟩ := mem_zip hx
      exact (key hr1 hr2 ha hb).2
    · simp [s1.1, s2.1]
    · intro row hrow
      obtain ⟨r1, hr1, r2, hr2, rfl⟩ := mem_zip hrow
      simp [s1.2 _ hr1, s2.2 _ hr2]
  obtain ⟨V1, d1, e1, u1, l1⟩ := tie (·.1) (·.1) (fun p v hs => hs.1)
  obtain ⟨V2, d2, e2, u2, l2⟩ := tie (·.2.1) (·.2.1) (fun p v hs => hs.2.1)
  obtain ⟨V3, d3, e3, u3, l3⟩ := tie (·.2.2) (·.2.2) (fun p v hs => hs.2.2)
  have run {V : Mat (Fl r)} (u : ∀ row ∈ V, ∀ x ∈ row, (Fl.approx h hε).mag x ≤ 10 ^ 8) (l : V.length = Y.length ∧ ∀ row ∈ V, row.length = X.length) :=
    grid_same (L := L) hL tok tok' be fill fill' hY hX h2y h2x hB bY bX (M := 10 ^ 8) (by norm_num) (leL hL (by norm_num)) u l hin
  obtain ⟨i1, j1, p1, q1, a1, b1, w1⟩ := run u1 l1
  obtain ⟨i2, j2, p2, q2, a2, b2, w2⟩ := run u2 l2
  obtain ⟨i3, j3, p3, q3, a3, b3, w3⟩ := run u3 l3
  have mk1 : mkGeo (singleGrid (fun _ => linearKernel) be fill (Y.map .val) (X.map .val)) [.array lons, .array lats] = .ok [i1, i2, i3] := by
    have g : geoTies lons lats = [V1, V2, V3] := by rw [d1, d2, d3]; rfl
    unfold mkGeo toXyz mkMultiple
    simp only [g, List.mapM_cons, List.mapM_nil, p1, p2, p3, bind, Except.bind, pure, Except.pure]
  have mk2 : mkGeo (singleGrid (fun _ => linearKernel) be fill' (ovPos L Y) (ovPos L X)) [.array (ovMat L lons), .array (ovMat L lats)] = .ok [j1, j2, j3] := by
    have g : geoTies (ovMat L lons) (ovMat L lats) = [ovMat L V1, ovMat L V2, ovMat L V3] := by rw [← e1, ← e2, ← e3]; rfl
    unfold mkGeo toXyz mkMultiple
    simp only [g, List.mapM_cons, List.mapM_nil, q1, q2, q3, bind, Except.bind, pure, Except.pure]
  have out1 : interpolateGeo tok [i1, i2, i3] [fy.map .val, fx.map .val] none () = .ok
      (fy.map (fun y => fx.map (fun x => (xyz2lonlat earthRadius defaultThr true (linearKernel (Y.map .val) (X.map .val) V1 (.val y) (.val x),
        linearKernel (Y.map .val) (X.map .val) V2 (.val y) (.val x), linearKernel (Y.map .val) (X.map .val) V3 (.val y) (.val x))).1)),
      fy.map (fun y => fx.map (fun x => (xyz2lonlat earthRadius defaultThr true (linearKernel (Y.map .val) (X.map .val) V1 (.val y) (.val x),
        linearKernel (Y.map .val) (X.map .val) V2 (.val y) (.val x), linearKernel (Y.map .val) (X.map .val) V3 (.val y) (.val x))).2))) := by
    unfold interpolateGeo interpolateMultiple
    simp only [List.map_cons, List.map_nil, a1, a2, a3, List.mapM_cons, List.mapM_nil, bind, Except.bind, pure, Except.pure, id]
    exact toLonLat_map fy fx _ _ _
  refine ⟨_, _, _, _, mk1, mk2, out1, ?_⟩
  · unfold interpolateGeo interpolateMultiple
    simp only [List.map_cons, List.map_nil, b1, b2, b3, List.mapM_cons, List.mapM_nil, bind, Except.bind, pure, Except.pure, id]
    exact toLonLat_same hL fy fx _ _ _ w1 w2 w3

/-- **C107 (longitudes and latitudes on a grid)**: longitudes and latitudes of at most `10^10` (or NaN) at ascending positions: the geographic
grid interpolator can be made and gives the same numbers as in arithmetic without overflow at all fine points inside the grid. -/
theorem C107_geogrid (h : LibRel r ε) (hε : ε ≤ 1 / 100) (maxF : ℝ) (hmax : (10 : ℝ) ^ 37 ≤ maxF) (tok : TokIn Unit (Fl r) → Nat)
    (tok' : TokIn Unit (Ov (flLimit h hε maxF)) → Nat) (be : Bool) (fill : Option (Fl r)) (fill' : Option (Ov (flLimit h hε maxF))) (Y X : List ℝ)
    (hY : Y.Pairwise (· < ·)) (hX : X.Pairwise (· < ·)) (h2y : 2 ≤ Y.length) (h2x : 2 ≤ X.length) (bY : ∀ y ∈ Y, |y| ≤ maxF / 4)
    (bX : ∀ x ∈ X, |x| ≤ maxF / 4) (lons lats : Mat (Fl r)) (h1 : ModerateMat (10 ^ 10) lons) (h2 : ModerateMat (10 ^ 10) lats)
    (s1 : lons.length = Y.length ∧ ∀ row ∈ lons, row.length = X.length) (s2 : lats.length = Y.length ∧ ∀ row ∈ lats, row.length = X.length)
    (fy fx : List ℝ) (hin : (∀ y ∈ fy, Inside Y y) ∧ ∀ x ∈ fx, Inside X x) :
    ∃ is is' lon lat, mkGeo (singleGrid (fun _ => linearKernel) be fill (Y.map .val) (X.map .val)) [.array lons, .array lats] = .ok is ∧
      mkGeo (singleGrid (fun _ => linearKernel) be fill' (ovPos _ Y) (ovPos _ X)) [.array (ovMat _ lons), .array (ovMat _ lats)] = .ok is' ∧
      interpolateGeo tok is [fy.map .val, fx.map .val] none () = .ok (lon, lat) ∧
      interpolateGeo tok' is' [ovPos _ fy, ovPos _ fx] none () = .ok (ovMat _ lon, ovMat _ lat) := by
  have h0 : 0 ≤ maxF := le_trans (by positivity) hmax
  exact geogrid_same (L := flLimit h hε maxF) hmax tok tok' be fill fill' Y X hY hX h2y h2x (B := maxF / 4)
    (by show 2.5 * (maxF / 4) ≤ maxF; linarith) bY bX lons lats h1 h2 s1 s2 fy fx hin

/-- a grid of 2 by 3 positions whose data crosses the 180-degree meridian and has a NaN; fine points inside -/
example (tok : TokIn Unit (Fl (Rounding.correct 53 (by norm_num))) → Nat)
    (tok' : TokIn Unit (Ov (flLimit (libRel_correct 53 (by norm_num)) double_u maxFloat64)) → Nat) :
    ∃ is is' lon lat, mkGeo (singleGrid (fun _ => linearKernel) true none ([0, 10].map .val) ([0, 5, 10].map .val))
        [.array [[.val 179, .bad, .val (-178)], [.val 179, .val 180, .val (-178)]], .array [[.val 10, .val 11, .val 12], [.val 12, .val 13, .val 14]]] = .ok is ∧
      mkGeo (singleGrid (fun _ => linearKernel) true none (ovPos _ [0, 10]) (ovPos _ [0, 5, 10]))
        [.array (ovMat _ [[.val 179, .bad, .val (-178)], [.val 179, .val 180, .val (-178)]]),
          .array (ovMat _ [[.val 10, .val 11, .val 12], [.val 12, .val 13, .val 14]])] = .ok is' ∧
      interpolateGeo tok is [[3, 7].map .val, [1, 5].map .val] none () = .ok (lon, lat) ∧
      interpolateGeo tok' is' [ovPos _ [3, 7], ovPos _ [1, 5]] none () = .ok (ovMat _ lon, ovMat _ lat) := by
  have hm := maxFloat64_ge
  refine C107_geogrid _ _ maxFloat64 hm tok tok' true none none [0, 10] [0, 5, 10] (by norm_num) (by norm_num) (by simp) (by simp) ?_ ?_ _ _ ?_ ?_
    (by simp) (by simp) [3, 7] [1, 5] ⟨?_, ?_⟩
  · intro y hy
    simp at hy
    rcases hy with rfl | rfl <;> norm_num <;> linarith
  · intro y hy
    simp at hy
    rcases hy with rfl | rfl | rfl <;> norm_num <;> linarith
  · intro row hrow x hx
    simp at hrow
    rcases hrow with rfl | rfl <;> simp at hx
    · rcases hx with rfl | rfl <;> norm_num [abs_le]
    · rcases hx with rfl | rfl | rfl <;> norm_num [abs_le]
  · intro row hrow x hx
    simp at hrow
    rcases hrow with rfl | rfl <;> simp at hx <;> rcases hx with rfl | rfl | rfl <;> norm_num [abs_le]
  · intro y hy
    simp at hy
    rcases hy with rfl | rfl <;> intro _ <;> norm_num
  · intro y hy
    simp at hy
    rcases hy with rfl | rfl <;> intro _ <;> norm_num

/-- values of a single grid far from the ordinary: `10^35` in a format whose largest number is `10^37` -/
example (tok : TokIn Unit (Fl (Rounding.correct 53 (by norm_num))) → Nat)
    (tok' : TokIn Unit (Ov (flLimit (libRel_correct 53 (by norm_num)) double_u (10 ^ 37))) → Nat) :
    ∃ s s' m, singleGrid (fun _ => linearKernel) false none ([0, 10].map .val) ([-(10 ^ 36), 10 ^ 36].map .val)
        [[.val (10 ^ 35), .val (-10 ^ 35)], [.bad, .val 1]] = .ok s ∧
      singleGrid (fun _ => linearKernel) false none (ovPos _ [0, 10]) (ovPos _ [-(10 ^ 36), 10 ^ 36])
        (ovMat _ [[.val (10 ^ 35), .val (-10 ^ 35)], [.bad, .val 1]]) = .ok s' ∧
      s.interpolate tok ([3, 7].map .val) ([0].map .val) none () = .ok m ∧
      s'.interpolate tok' (ovPos _ [3, 7]) (ovPos _ [0]) none () = .ok (ovMat _ m) := by
  refine C107_grid _ _ (10 ^ 37) le_rfl tok tok' false none none [0, 10] [-(10 ^ 36), 10 ^ 36] (by norm_num) (by norm_num) (by simp) (by simp) ?_ ?_ _ ?_
    (by simp) [3, 7] [0] ⟨?_, ?_⟩
  · intro y hy
    simp at hy
    rcases hy with rfl | rfl <;> norm_num
  · intro y hy
    simp at hy
    rcases hy with rfl | rfl <;> norm_num
  · intro row hrow x hx
    simp at hrow
    rcases hrow with rfl | rfl <;> simp at hx
    · rcases hx with rfl | rfl <;> rw [abs_le] <;> norm_num
    · subst hx; rw [abs_le]; norm_num
  · intro y hy
    simp at hy
    rcases hy with rfl | rfl <;> intro _ <;> norm_num
  · intro y hy
    simp at hy
    subst hy
    intro _
    norm_num

end Verif.Props
