import Verif.Spec.ModisSimple
import Verif.Proofs.Modis

namespace Verif

theorem Arr2.Holds.upd {α : Type} {a : Arr2 α} {R C : Nat} {F : Nat → Nat → α} {S : Nat → Nat → Prop}
    (h : a.Holds R C F S) {i j : Nat} (hi : i < R) (hj : j < C) (v : α) :
    ∃ a', a.wr i j v = .ok a' ∧ a'.Holds R C (fun i' j' => if i' = i ∧ j' = j then v else F i' j') S := by
  refine ⟨_, if_pos ⟨by rw [h.rows]; exact hi, by rw [h.cols]; exact hj⟩, h.rows, h.cols, ?_⟩
  intro i' j' hi' hj' hS
  by_cases e : i' = i ∧ j' = j
  · simp only [e, and_self, if_true]
  · simp only [if_neg e]; exact h.cell i' j' hi' hj' hS

theorem Arr2.Holds.congr {α : Type} {a : Arr2 α} {R C : Nat} {F G : Nat → Nat → α} {S : Nat → Nat → Prop}
    (h : a.Holds R C F S) (hFG : ∀ i j, i < R → j < C → S i j → F i j = G i j) : a.Holds R C G S :=
  ⟨h.rows, h.cols, fun i j hi hj hS => (h.cell i j hi hj hS).trans (hFG i j hi hj hS)⟩

end Verif

namespace Verif.ModisSimple
open Verif Verif.Modis Verif.Spec.ModisSimple
open Verif.Spec.Modis hiding pixel scanPixel
variable {α : Type} [Trig α]

abbrev All2 : Nat → Nat → Prop := fun _ _ => True
abbrev All3 : Nat → Nat → Nat → Prop := fun _ _ _ => True

/-- content of the coordinates array -/
def coordCell (f : Nat) (k j i : Nat) : α := if k = 0 then coordY f j else coordX f i

theorem computeYX_ok {f R C : Nat} {co : Arr3 α} (h1 : co.rows = 2) (h2 : co.cols = R) (h3 : co.depth = C) :
    ∃ co', computeYX f co = .ok co' ∧ co'.Holds 2 R C (coordCell f) All3 := by
  obtain ⟨c', e, p⟩ := loop2_ok (n := co.cols) (m := co.depth)
    (body := fun j i (co : Arr3 α) => do
      let co ← co.wr 0 j i (coordY f j)
      co.wr 1 j i (coordX f i)) (s := co)
    (P := fun T s => s.Holds 2 R C (coordCell f) (fun _ j i => T j i))
    ⟨h1, h2, h3, fun _ _ _ _ _ _ h => h.elim⟩
    (fun S T s hst hp => hp.mono (fun _ i j _ _ _ h => hst i j h))
    (fun j i S s hj hi hp => by
      obtain ⟨c1, e1, q1⟩ := hp.wr (v := coordY f j) (i := 0) (j := j) (k := i) (by omega) (by omega) (by omega) rfl
      obtain ⟨c2, e2, q2⟩ := q1.wr (v := coordX f i) (i := 1) (j := j) (k := i) (by omega) (by omega) (by omega) rfl
      refine ⟨c2, by simp only [bind, Except.bind, e1, e2], q2.mono ?_⟩
      intro k j' i' hk _ _ h
      rcases h with h | ⟨h1, h2⟩
      · exact Or.inl (Or.inl h)
      · obtain rfl | rfl : k = 0 ∨ k = 1 := by omega
        · exact Or.inl (Or.inr ⟨rfl, h1, h2⟩)
        · exact Or.inr ⟨rfl, h1, h2⟩)
  exact ⟨c', e, p.mono (fun k j i _ hj hi _ => ⟨by omega, by omega⟩)⟩

/-- right extrapolation of one row -/
def rightOf (n C : Nat) (B : Nat → Nat → α) (j i : Nat) : α :=
  if C - n ≤ i then B j i + (B j (C - n - 1) - B j (C - n - 2)) * Arith.ofInt (((i - (C - n) : Nat) : Int) + 1)
  else B j i

theorem extrapolateRight_ok {n R C : Nat} {a : Arr2 α} {B : Nat → Nat → α} (hn : n + 2 ≤ C)
    (h : a.Holds R C B All2) :
    ∃ a', extrapolateRight n a = .ok a' ∧ a'.Holds R C (rightOf n C B) All2 := by
  unfold extrapolateRight
  rw [h.rows]
  obtain ⟨a', e, p⟩ := loop_ok (n := R) (body := fun row (res : Arr2 α) => do
      if res.cols < n + 2 then .error .ub else
      let a ← res.rd row (res.cols - n - 1)
      let b ← res.rd row (res.cols - n - 2)
      let d := a - b
      loop n (fun off res => do
        let v ← res.rd row (res.cols - n + off)
        res.wr row (res.cols - n + off) (v + d * Arith.ofInt ((off : Int) + 1))) res) (s := a)
    (P := fun k s => s.Holds R C (fun j i => if j < k then rightOf n C B j i else B j i) All2)
    (h.congr (fun i j _ _ _ => by simp))
    (fun row s hrow hp => by
      have hA := hp.rd (i := row) (j := C - n - 1) hrow (by omega) trivial
      have hB := hp.rd (i := row) (j := C - n - 2) hrow (by omega) trivial
      simp only [lt_irrefl, if_false] at hA hB
      rw [hp.cols, if_neg (by omega), hA, hB]
      simp only [bind, Except.bind]
      obtain ⟨s', e, p⟩ := loop_ok (n := n) (body := fun off (res : Arr2 α) => do
          let v ← res.rd row (res.cols - n + off)
          res.wr row (res.cols - n + off) (v + (B row (C - n - 1) - B row (C - n - 2))
            * Arith.ofInt ((off : Int) + 1))) (s := s)
        (P := fun k s => s.Holds R C (fun j i => if j < row ∨ (j = row ∧ i < C - n + k) then rightOf n C B j i
          else B j i) All2)
        (hp.congr (fun i j _ _ _ => by
          by_cases c : i < row
          · simp [c]
          · by_cases c2 : i = row ∧ j < C - n
            · obtain ⟨rfl, c3⟩ := c2
              simp [c3, rightOf, show ¬ (C - n ≤ j) by omega]
            · rw [if_neg c, if_neg (by omega)]))
        (fun off s hoff hp => by
          have hV := hp.rd (i := row) (j := C - n + off) hrow (by omega) trivial
          rw [if_neg (by omega)] at hV
          obtain ⟨s', e', p'⟩ := hp.upd (i := row) (j := C - n + off) hrow (by omega)
            (B row (C - n + off) + (B row (C - n - 1) - B row (C - n - 2)) * Arith.ofInt ((off : Int) + 1))
          refine ⟨s', ?_, p'.congr (fun i j _ _ _ => ?_)⟩
          · rw [hp.cols, hV]
            simp only [bind, Except.bind]
            exact e'
          · by_cases c : i = row ∧ j = C - n + off
            · obtain ⟨rfl, rfl⟩ := c
              rw [if_pos ⟨rfl, rfl⟩, if_pos (by omega)]
              unfold rightOf
              rw [if_pos (by omega), show C - n + off - (C - n) = off by omega]
            · rw [if_neg c]
              by_cases c2 : i < row ∨ (i = row ∧ j < C - n + off)
              · rw [if_pos c2, if_pos (by omega)]
              · rw [if_neg c2, if_neg (by omega)])
      exact ⟨s', e, p.congr (fun i j _ hj _ => by
        by_cases c : i < row + 1
        · rw [if_pos (by omega), if_pos c]
        · rw [if_neg (by omega), if_neg c])⟩)
  exact ⟨a', e, p.congr (fun i j hi _ _ => by rw [if_pos hi])⟩

theorem calcSlope_ok {st f R C off col : Nat} {a : Arr2 α} {B : Nat → Nat → α} {co : Arr3 α} {C' : Nat}
    (h : a.Holds R C B All2) (hc : co.Holds 2 R C' (coordCell f) All3) (hR : off + st < R) (hC : col < C)
    (hC' : 0 < C') :
    calcSlope st a co col off
      = .ok ((B (off + st) col - B off col) / (coordY f (off + st) - coordY f off)) := by
  unfold calcSlope
  rw [h.rd hR hC trivial, h.rd (by omega) hC trivial, hc.rd (by omega) hR hC' trivial,
    hc.rd (by omega) (by omega) hC' trivial]
  rfl

theorem calcOffset_ok {st f R C off col : Nat} {a : Arr2 α} {B : Nat → Nat → α} {co : Arr3 α} {C' : Nat} {m : α}
    (h : a.Holds R C B All2) (hc : co.Holds 2 R C' (coordCell f) All3) (hR : off + st < R) (hC : col < C)
    (hC' : 0 < C') :
    calcOffset st a co m col off = .ok (B (off + st) col - m * coordY f (off + st)) := by
  unfold calcOffset
  rw [h.rd hR hC trivial, hc.rd (by omega) hR hC' trivial]
  rfl

theorem putLine_ok {f R C row col : Nat} {a : Arr2 α} {B : Nat → Nat → α} {co : Arr3 α} {C' : Nat} {m b : α}
    (h : a.Holds R C B All2) (hc : co.Holds 2 R C' (coordCell f) All3) (hR : row < R) (hC : col < C)
    (hC' : 0 < C') :
    ∃ a', putLine a co m b row col = .ok a' ∧
      a'.Holds R C (fun i j => if i = row ∧ j = col then m * coordY f row + b else B i j) All2 := by
  obtain ⟨a', e, p⟩ := h.upd hR hC (m * coordY f row + b)
  refine ⟨a', ?_, p⟩
  unfold putLine
  rw [hc.rd (by omega) hR hC' trivial]
  exact e

/-- row extrapolation, for `f = 2` and `f = 4` -/
def extOf (f : Nat) (B : Nat → Nat → α) (j i : Nat) : α :=
  if j < f / 2 then line f (step f) (f / 2) (fun r => B r i) j
  else if 10 * f - f / 2 ≤ j then line f (step f) (10 * f - f / 2 - step f - 1) (fun r => B r i) j
  else B j i

theorem interpolate250_ok {C C' : Nat} {a : Arr2 α} {B : Nat → Nat → α} {co : Arr3 α}
    (h : a.Holds 40 C B All2) (hc : co.Holds 2 40 C' (coordCell 4) All3) (hC' : 0 < C') :
    ∃ a', interpolate250 co a = .ok a' ∧ a'.Holds 40 C (extOf 4 B) All2 := by
  unfold interpolate250
  rw [h.cols]
  obtain ⟨a', e, p⟩ := loop_ok (n := C) (body := fun col (res : Arr2 α) => do
      let m ← calcSlope 3 res co col 2
      let b ← calcOffset 3 res co m col 2
      let res ← putLine res co m b 0 col
      let res ← putLine res co m b 1 col
      let m ← calcSlope 3 res co col 34
      let b ← calcOffset 3 res co m col 34
      let res ← putLine res co m b 38 col
      putLine res co m b 39 col) (s := a)
    (P := fun k s => s.Holds 40 C (fun j i => if i < k then extOf 4 B j i else B j i) All2)
    (h.congr (fun i j _ _ _ => by simp))
    (fun col s hcol hp => by
      rw [calcSlope_ok hp hc (by omega) hcol hC']
      simp only [bind, Except.bind]
      rw [calcOffset_ok hp hc (by omega) hcol hC']
      simp only [lt_irrefl, if_false, Nat.reduceAdd]
      obtain ⟨s1, e1, p1⟩ := putLine_ok (m := (B 5 col - B 2 col) / (coordY 4 5 - coordY 4 2))
        (b := B 5 col - (B 5 col - B 2 col) / (coordY 4 5 - coordY 4 2) * coordY 4 5) (row := 0) hp hc (by omega)
        hcol hC'
      rw [e1]; simp only
      obtain ⟨s2, e2, p2⟩ := putLine_ok (m := (B 5 col - B 2 col) / (coordY 4 5 - coordY 4 2))
        (b := B 5 col - (B 5 col - B 2 col) / (coordY 4 5 - coordY 4 2) * coordY 4 5) (row := 1) p1 hc (by omega)
        hcol hC'
      rw [e2]; simp only
      rw [calcSlope_ok p2 hc (by omega) hcol hC']
      simp only
      rw [calcOffset_ok p2 hc (by omega) hcol hC']
      simp only [lt_irrefl, if_false, Nat.reduceAdd, Nat.reduceEqDiff, false_and]
      obtain ⟨s3, e3, p3⟩ := putLine_ok (m := (B 37 col - B 34 col) / (coordY 4 37 - coordY 4 34))
        (b := B 37 col - (B 37 col - B 34 col) / (coordY 4 37 - coordY 4 34) * coordY 4 37) (row := 38) p2 hc
        (by omega) hcol hC'
      rw [e3]; simp only
      obtain ⟨s4, e4, p4⟩ := putLine_ok (m := (B 37 col - B 34 col) / (coordY 4 37 - coordY 4 34))
        (b := B 37 col - (B 37 col - B 34 col) / (coordY 4 37 - coordY 4 34) * coordY 4 37) (row := 39) p3 hc
        (by omega) hcol hC'
      refine ⟨s4, e4, p4.congr (fun j i hj hi _ => ?_)⟩
      by_cases ci : i = col
      · subst ci
        simp only [and_true, lt_irrefl, if_false, Nat.lt_succ_self, if_true]
        unfold extOf
        simp only [step, line, if_true, Nat.reduceDiv, Nat.reduceMul, Nat.reduceSub, Nat.reduceAdd]
        obtain rfl | rfl | rfl | rfl | hj' : j = 0 ∨ j = 1 ∨ j = 38 ∨ j = 39 ∨ (1 < j ∧ j < 38) := by omega
        · simp
        · simp
        · simp
        · simp
        · rw [if_neg (by omega), if_neg (by omega), if_neg (by omega), if_neg (by omega), if_neg (by omega),
            if_neg (by omega)]
      · simp only [ci, and_false, if_false]
        by_cases c2 : i < col
        · rw [if_pos c2, if_pos (by omega)]
        · rw [if_neg c2, if_neg (by omega)])
  exact ⟨a', e, p.congr (fun i j _ hj _ => by rw [if_pos hj])⟩

theorem interpolate500_ok {C C' : Nat} {a : Arr2 α} {B : Nat → Nat → α} {co : Arr3 α}
    (h : a.Holds 20 C B All2) (hc : co.Holds 2 20 C' (coordCell 2) All3) (hC' : 0 < C') :
    ∃ a', interpolate500 co a = .ok a' ∧ a'.Holds 20 C (extOf 2 B) All2 := by
  unfold interpolate500
  rw [h.cols]
  obtain ⟨a', e, p⟩ := loop_ok (n := C) (body := fun col (res : Arr2 α) => do
      let m ← calcSlope 1 res co col 1
      let b ← calcOffset 1 res co m col 1
      let res ← putLine res co m b 0 col
      let m ← calcSlope 1 res co col 17
      let b ← calcOffset 1 res co m col 17
      putLine res co m b 19 col) (s := a)
    (P := fun k s => s.Holds 20 C (fun j i => if i < k then extOf 2 B j i else B j i) All2)
    (h.congr (fun i j _ _ _ => by simp))
    (fun col s hcol hp => by
      rw [calcSlope_ok hp hc (by omega) hcol hC']
      simp only [bind, Except.bind]
      rw [calcOffset_ok hp hc (by omega) hcol hC']
      simp only [lt_irrefl, if_false, Nat.reduceAdd]
      obtain ⟨s2, e2, p2⟩ := putLine_ok (m := (B 2 col - B 1 col) / (coordY 2 2 - coordY 2 1))
        (b := B 2 col - (B 2 col - B 1 col) / (coordY 2 2 - coordY 2 1) * coordY 2 2) (row := 0) hp hc (by omega)
        hcol hC'
      rw [e2]; simp only
      rw [calcSlope_ok p2 hc (by omega) hcol hC']
      simp only
      rw [calcOffset_ok p2 hc (by omega) hcol hC']
      simp only [lt_irrefl, if_false, Nat.reduceAdd, Nat.reduceEqDiff, false_and]
      obtain ⟨s4, e4, p4⟩ := putLine_ok (m := (B 18 col - B 17 col) / (coordY 2 18 - coordY 2 17))
        (b := B 18 col - (B 18 col - B 17 col) / (coordY 2 18 - coordY 2 17) * coordY 2 18) (row := 19) p2 hc
        (by omega) hcol hC'
      refine ⟨s4, e4, p4.congr (fun j i hj hi _ => ?_)⟩
      by_cases ci : i = col
      · subst ci
        simp only [and_true, lt_irrefl, if_false, Nat.lt_succ_self, if_true]
        unfold extOf
        simp only [step, line, show ¬ ((2 : Nat) = 4) by omega, if_false, Nat.reduceDiv, Nat.reduceMul,
          Nat.reduceSub, Nat.reduceAdd]
        obtain rfl | rfl | hj' : j = 0 ∨ j = 19 ∨ (0 < j ∧ j < 19) := by omega
        · simp
        · simp
        · rw [if_neg (by omega), if_neg (by omega), if_neg (by omega), if_neg (by omega)]
      · simp only [ci, and_false, if_false]
        by_cases c2 : i < col
        · rw [if_pos c2, if_pos (by omega)]
        · rw [if_neg c2, if_neg (by omega)])
  exact ⟨a', e, p.congr (fun i j _ hj _ => by rw [if_pos hj])⟩

/-- the two supported factors -/
def Factor (f : Nat) : Prop := f = 2 ∨ f = 4

/-- extrapolation to the right, then of the rows: one plane -/
theorem plane_ok {f C : Nat} (hf : Factor f) (hC : 2 ≤ C) {a : Arr2 α} {B : Nat → Nat → α} {co : Arr3 α}
    (h : a.Holds (10 * f) (f * C) B All2) (hc : co.Holds 2 (10 * f) (f * C) (coordCell f) All3) :
    ∃ p1 p2, extrapolateRight (nRight f) a = .ok p1 ∧
      (if f = 4 then interpolate250 co p1 else interpolate500 co p1) = .ok p2 ∧
      p2.Holds (10 * f) (f * C) (extOf f (rightOf (nRight f) (f * C) B)) All2 := by
  rcases hf with rfl | rfl
  · obtain ⟨p1, e1, q1⟩ := extrapolateRight_ok (n := nRight 2) (by simp only [nRight]; norm_num; omega) h
    obtain ⟨p2, e2, q2⟩ := interpolate500_ok q1 hc (by omega)
    exact ⟨p1, p2, e1, e2, q2⟩
  · obtain ⟨p1, e1, q1⟩ := extrapolateRight_ok (n := nRight 4) (by simp only [nRight]; norm_num; omega) h
    obtain ⟨p2, e2, q2⟩ := interpolate250_ok q1 hc (by omega)
    exact ⟨p1, p2, e1, e2, q2⟩

theorem interpScan_ok {mc : MapCoord α} {f C : Nat} (hf : Factor f) (hC : 2 ≤ C) {co xyzIn res : Arr3 α}
    {V : Nat → Nat → Nat → α} (hco : co.Holds 2 (10 * f) (f * C) (coordCell f) All3)
    (hx : xyzIn.Holds 10 C 3 V All3) (h1 : res.rows = 10 * f) (h2 : res.cols = f * C) (h3 : res.depth = 3) :
    ∃ res', interpScan mc f co xyzIn res = .ok res' ∧
      res'.Holds (10 * f) (f * C) 3 (fun j i k => fine mc f C (fun a b => V a b k) j i) All3 := by
  have hmc : ∀ k, k < 3 → ∀ j i, j < 10 * f → i < f * C →
      mc xyzIn.rows xyzIn.cols (fun a b => xyzIn.cell a b k) (co.cell 0 j i) (co.cell 1 j i)
        = base mc f C (fun a b => V a b k) j i := by
    intro k hk j i hj hi
    obtain ⟨xr, xc, xd, xv⟩ := hx
    obtain ⟨R, C', D, cell⟩ := xyzIn
    simp only at xr xc xd xv ⊢
    subst xr; subst xc
    rw [hco.cell 0 j i (by omega) hj hi trivial, hco.cell 1 j i (by omega) hj hi trivial]
    unfold base coordCell
    rw [if_pos rfl, if_neg (by omega)]
    congr 1
    funext a b
    exact xv a b k a.2 b.2 (by omega) trivial
  obtain ⟨r1, e1, q1⟩ := loop_ok (n := 3)
    (body := fun k (res : Arr3 α) =>
      (.ok (res.setPlane k (callMapCoordinates mc (xyzIn.plane k) co (res.plane k))) : Except Err _))
    (s := res)
    (P := fun n s => s.Holds (10 * f) (f * C) 3 (fun j i k => base mc f C (fun a b => V a b k) j i)
      (fun _ _ k => k < n))
    ⟨h1, h2, h3, fun _ _ _ _ _ _ h => absurd h (by omega)⟩
    (fun n s hn hp => by
      refine ⟨_, rfl, hp.rows, hp.cols, hp.depth, ?_⟩
      intro j i k hj hi hk hkn
      simp only [Arr3.setPlane, callMapCoordinates, Arr3.plane]
      by_cases c : k = n
      · rw [if_pos c]; subst c; exact hmc k hk j i hj hi
      · rw [if_neg c]; exact hp.cell j i k hj hi hk (by omega))
  have key : ∀ body : Nat → Arr3 α → Except Err (Arr3 α),
      (∀ k (res : Arr3 α), body k res = (do
        let p ← extrapolateRight (nRight f) (res.plane k)
        let p ← (if f = 4 then interpolate250 co p else interpolate500 co p)
        .ok (res.setPlane k p))) →
      ∃ res', loop 3 body r1 = .ok res' ∧
        res'.Holds (10 * f) (f * C) 3 (fun j i k => fine mc f C (fun a b => V a b k) j i) All3 := by
    intro body hbody
    obtain ⟨r2, e2, q2⟩ := loop_ok (n := 3) (body := body) (s := r1)
      (P := fun n s => s.Holds (10 * f) (f * C) 3
        (fun j i k => if k < n then fine mc f C (fun a b => V a b k) j i
          else base mc f C (fun a b => V a b k) j i) All3)
      ⟨q1.rows, q1.cols, q1.depth, fun j i k hj hi hk _ => by
        rw [if_neg (by omega)]; exact q1.cell j i k hj hi hk hk⟩
      (fun n s hn hp => by
        obtain ⟨p1, p2, e1, e2, q⟩ := plane_ok hf hC (a := s.plane n)
          (B := base mc f C (fun a b => V a b n))
          ⟨hp.rows, hp.cols, fun j i hj hi _ => by
            have := hp.cell j i n hj hi (by omega) trivial
            rw [if_neg (by omega)] at this
            exact this⟩ hco
        refine ⟨s.setPlane n p2, ?_, hp.rows, hp.cols, hp.depth, ?_⟩
        · rw [hbody, e1]
          simp only [bind, Except.bind]
          rw [e2]
        · intro j i k hj hi hk _
          simp only [Arr3.setPlane]
          by_cases c : k = n
          · rw [if_pos c, if_pos (by omega)]; subst c
            rw [q.cell j i hj hi trivial]; rfl
          · rw [if_neg c, hp.cell j i k hj hi hk trivial]
            by_cases c2 : k < n
            · rw [if_pos c2, if_pos (by omega)]
            · rw [if_neg c2, if_neg (by omega)])
    exact ⟨r2, e2, q2.rows, q2.cols, q2.depth, fun j i k hj hi hk _ => by
      rw [q2.cell j i k hj hi hk trivial, if_pos hk]⟩
  unfold interpScan
  rw [e1]
  simp only [bind, Except.bind]
  rcases hf with rfl | rfl
  · rw [if_neg (by omega)]
    exact key _ (fun k res => by
      simp only [nRight, show ¬ ((2 : Nat) = 4) by omega, if_false]; rfl)
  · rw [if_pos rfl]
    exact key _ (fun k res => by simp only [nRight, if_true]; rfl)

theorem pixel_block {mc : MapCoord α} {f C : Nat} (lon lat : Nat → Nat → α) {s r c : Nat} (hr : r < 10 * f) :
    pixel mc f C lon lat (s * (10 * f) + r) c = scanPixel mc f C lon lat (s * 10) r c := by
  unfold pixel
  rw [div_block hr, Nat.mul_comm s (10 * f), Nat.mul_add_mod, Nat.mod_eq_of_lt hr]

structure Shaped (f C : Nat) (b : Bufs α) : Prop where
  xi : b.xyzIn.rows = 10 ∧ b.xyzIn.cols = C ∧ b.xyzIn.depth = 3
  xr : b.res.rows = 10 * f ∧ b.res.cols = f * C ∧ b.res.depth = 3

/-- **Refinement**: the program computes the per-pixel formula on whole scans; rows after the last whole scan keep the
initial memory. -/
theorem interpolateRF_rem {mc : MapCoord α} {f C n m : Nat} (hf : Factor f) (hC : 2 ≤ C) (hm : m < 10)
    {lon lat : Arr2 α} (h1 : lon.rows = n * 10 + m ∧ lon.cols = C) (h2 : lat.rows = n * 10 + m ∧ lat.cols = C)
    (junk : Nat → Nat → Nat → Nat → α) :
    ∃ out, interpolateRF mc 10 f lon lat junk = .ok out ∧
      out.1.Holds (lon.rows * f) (f * C) (fun r c => if r < n * (10 * f) then (pixel mc f C lon.cell lat.cell r c).1
        else junk 3 0 r c) All2 ∧
      out.2.Holds (lon.rows * f) (f * C) (fun r c => if r < n * (10 * f) then (pixel mc f C lon.cell lat.cell r c).2
        else junk 4 0 r c) All2 := by
  obtain ⟨co, eco, hco⟩ := computeYX_ok (f := f) (R := 10 * f) (C := f * C)
    (co := (⟨2, f * 10, f * lon.cols, junk 0⟩ : Arr3 α)) rfl (Nat.mul_comm _ _) (by simp only [h1.2])
  set F : Nat → Nat → α × α := fun r c =>
    (if r < n * (10 * f) then (pixel mc f C lon.cell lat.cell r c).1 else junk 3 0 r c,
     if r < n * (10 * f) then (pixel mc f C lon.cell lat.cell r c).2 else junk 4 0 r c) with hFdef
  have hN : n * (10 * f) ≤ lon.rows * f := by
    rw [h1.1, ← Nat.mul_assoc]; exact Nat.mul_le_mul_right _ (by omega)
  obtain ⟨b', e, sh, p1, p2⟩ := loop_ok (n := n) (body := scanStep mc f 10 lon lat co)
    (s := (⟨⟨10, lon.cols, 3, junk 1⟩, ⟨f * 10, lon.cols * f, 3, junk 2⟩,
      (⟨f * lon.rows, f * lon.cols, junk 3 0⟩, ⟨f * lon.rows, f * lon.cols, junk 4 0⟩)⟩ : Bufs α))
    (P := fun s b => Shaped f C b ∧
      b.out.1.Holds (lon.rows * f) (f * C) (fun r c => (F r c).1) (fun i _ => i < s * (10 * f) ∨ n * (10 * f) ≤ i) ∧
      b.out.2.Holds (lon.rows * f) (f * C) (fun r c => (F r c).2) (fun i _ => i < s * (10 * f) ∨ n * (10 * f) ≤ i))
    ⟨⟨⟨rfl, h1.2, rfl⟩, ⟨Nat.mul_comm _ _, by simp only [h1.2, Nat.mul_comm], rfl⟩⟩,
      ⟨Nat.mul_comm _ _, by simp only [h1.2], fun i j _ _ h => by
        have : ¬ i < n * (10 * f) := by
          rcases h with h | h
          · simp at h
          · omega
        simp only [hFdef, if_neg this]⟩,
      ⟨Nat.mul_comm _ _, by simp only [h1.2], fun i j _ _ h => by
        have : ¬ i < n * (10 * f) := by
          rcases h with h | h
          · simp at h
          · omega
        simp only [hFdef, if_neg this]⟩⟩
    (fun s b hs ⟨sh, p1, p2⟩ => by
      have hsn : (s + 1) * (10 * f) ≤ n * (10 * f) := Nat.mul_le_mul_right _ hs
      have hs1 : (s + 1) * (10 * f) = s * (10 * f) + 10 * f := by ring
      have hk0 : 10 * f * s = s * (10 * f) := Nat.mul_comm _ _
      have hshape : ∀ a : Arr2 α, a.rows = n * 10 + m → (a.rowSlice (10 * s) (10 * s + 10)).rows = 10 := by
        intro a ha
        simp only [Arr2.rowSlice, ha]; omega
      obtain ⟨xyz, e1, px⟩ := lonlat2xyzArr_ok (lons := lon.rowSlice (10 * s) (10 * s + 10))
        (lats := lat.rowSlice (10 * s) (10 * s + 10)) (xyz := b.xyzIn)
        (hshape _ h1.1) h1.2 (hshape _ h2.1) h2.2 sh.xi.1 sh.xi.2.1 sh.xi.2.2
      obtain ⟨res, e2, pr⟩ := interpScan_ok (mc := mc) hf hC hco px sh.xr.1 sh.xr.2.1 sh.xr.2.2
      obtain ⟨out', e3, q1, q2⟩ := xyz2lonlatArr_ok (k0 := 10 * f * s) (k1 := 10 * f * s + 10 * f)
        (N := lon.rows * f) (o1 := b.out.1) (o2 := b.out.2) pr rfl (by omega) p1 p2
        (fun i j hi hj => by
          have hlt : s * (10 * f) + i < n * (10 * f) := by omega
          rw [hk0]
          simp only [hFdef, if_pos hlt, Prod.mk.eta]
          rw [pixel_block _ _ hi]
          simp only [scanPixel, ties, Arr2.rowSlice, tieXyz, Nat.mul_comm s 10])
      refine ⟨⟨xyz, res, out'⟩, ?_, ⟨⟨px.rows, px.cols, px.depth⟩, ⟨pr.rows, pr.cols, pr.depth⟩⟩,
        q1.mono ?_, q2.mono ?_⟩
      · unfold scanStep
        simp only [bind, Except.bind, e1, e2]
        rw [e3]
      all_goals
        intro i j _ _ h
        by_cases c : i < s * (10 * f) ∨ n * (10 * f) ≤ i
        · exact Or.inl c
        · exact Or.inr (by omega))
  refine ⟨b'.out, ?_, p1.mono (fun i j hi _ _ => by omega), p2.mono (fun i j hi _ _ => by omega)⟩
  have hd : lon.rows / 10 = n := by rw [h1.1]; exact div_block hm
  unfold interpolateRF
  rw [eco, hd]
  simp only [bind, Except.bind, e]

theorem interpolateRF_ok {mc : MapCoord α} {f C n : Nat} (hf : Factor f) (hC : 2 ≤ C)
    {lon lat : Arr2 α} (h1 : lon.rows = n * 10 ∧ lon.cols = C) (h2 : lat.rows = n * 10 ∧ lat.cols = C)
    (junk : Nat → Nat → Nat → Nat → α) :
    ∃ out, interpolateRF mc 10 f lon lat junk = .ok out ∧
      out.1.Holds (n * 10 * f) (f * C) (fun r c => (pixel mc f C lon.cell lat.cell r c).1) All2 ∧
      out.2.Holds (n * 10 * f) (f * C) (fun r c => (pixel mc f C lon.cell lat.cell r c).2) All2 := by
  obtain ⟨out, e, p1, p2⟩ := interpolateRF_rem (mc := mc) hf hC (m := 0) (by omega) h1 h2 junk
  rw [h1.1] at p1 p2
  refine ⟨out, e, ⟨p1.rows, p1.cols, ?_⟩, ⟨p2.rows, p2.cols, ?_⟩⟩
  · intro i j hi hj h
    rw [p1.cell i j hi hj h, if_pos (by rw [← Nat.mul_assoc]; exact hi)]
  · intro i j hi hj h
    rw [p2.cell i j hi hj h, if_pos (by rw [← Nat.mul_assoc]; exact hi)]

/-! ### inputs for which the program leaves its arrays -/

theorem extrapolateRight_ub {n : Nat} {a : Arr2 α} (hr : 0 < a.rows) (hc : a.cols < n + 2) :
    extrapolateRight n a = .error .ub := by
  unfold extrapolateRight
  refine loop_error (P := fun _ s => s = a) 0 hr rfl (fun i s hi => absurd hi (by omega)) ?_
  rintro s rfl
  simp only [if_pos hc]

omit [Trig α] in
/-- after the library calls, the result buffer has kept its shape -/
theorem mapLoop_shape {mc : MapCoord α} {co xyzIn res : Arr3 α} :
    ∃ r1, loop 3 (fun k (res : Arr3 α) =>
      (.ok (res.setPlane k (callMapCoordinates mc (xyzIn.plane k) co (res.plane k))) : Except Err _)) res = .ok r1 ∧
      r1.rows = res.rows ∧ r1.cols = res.cols ∧ r1.depth = res.depth := by
  obtain ⟨r, e, p⟩ := loop_ok (n := 3) (body := fun k (res : Arr3 α) =>
      (.ok (res.setPlane k (callMapCoordinates mc (xyzIn.plane k) co (res.plane k))) : Except Err _)) (s := res)
    (P := fun _ s => s.rows = res.rows ∧ s.cols = res.cols ∧ s.depth = res.depth) ⟨rfl, rfl, rfl⟩
    (fun k s _ hp => ⟨_, rfl, hp⟩)
  exact ⟨r, e, p⟩

theorem interpScan_narrow_ub {mc : MapCoord α} {f : Nat} {co xyzIn res : Arr3 α} (hr : 0 < res.rows)
    (hc : res.cols < nRight f + 2) : interpScan mc f co xyzIn res = .error .ub := by
  obtain ⟨r1, e1, s1, s2, _⟩ := mapLoop_shape (mc := mc) (co := co) (xyzIn := xyzIn) (res := res)
  unfold interpScan
  rw [e1]
  simp only [bind, Except.bind]
  have key : ∀ n, res.cols < n + 2 → extrapolateRight n (r1.plane 0) = .error .ub := fun n h =>
    extrapolateRight_ub (a := r1.plane 0) (by simp only [Arr3.plane]; omega) (by simp only [Arr3.plane]; omega)
  by_cases h4 : f = 4
  · rw [if_pos h4]
    simp only [nRight, if_pos h4] at hc
    refine loop_error (P := fun _ s => s = r1) 0 (by omega) rfl (fun i s hi => absurd hi (by omega)) ?_
    rintro s rfl
    simp only [key 3 hc]
  · rw [if_neg h4]
    simp only [nRight, if_neg h4] at hc
    refine loop_error (P := fun _ s => s = r1) 0 (by omega) rfl (fun i s hi => absurd hi (by omega)) ?_
    rintro s rfl
    simp only [key 1 hc]

theorem interpolate500_ub {R C C' f : Nat} {a : Arr2 α} {B : Nat → Nat → α} {co : Arr3 α}
    (h : a.Holds R C B All2) (hc : co.Holds 2 R C' (coordCell f) All3) (hC : 0 < C) (hC' : 0 < C') (hR : 3 ≤ R)
    (hR' : R ≤ 18) : interpolate500 co a = .error .ub := by
  unfold interpolate500
  rw [h.cols]
  refine loop_error (P := fun _ s => s = a) 0 hC rfl (fun i s hi => absurd hi (by omega)) ?_
  rintro s rfl
  rw [calcSlope_ok h hc (by omega) hC hC']
  simp only [bind, Except.bind]
  rw [calcOffset_ok h hc (by omega) hC hC']
  simp only
  obtain ⟨s2, e2, p2⟩ := putLine_ok (m := (B (1 + 1) 0 - B 1 0) / (coordY f (1 + 1) - coordY f 1))
    (b := B (1 + 1) 0 - (B (1 + 1) 0 - B 1 0) / (coordY f (1 + 1) - coordY f 1) * coordY f (1 + 1)) (row := 0) h hc
    (by omega) hC hC'
  rw [e2]
  simp only [calcSlope]
  rw [Arr2.rd_ub (by rw [p2.rows]; omega)]
  rfl

theorem interpScan_short_ub {mc : MapCoord α} {f R C C' : Nat} {co xyzIn res : Arr3 α} (hf : f ≠ 4)
    (hco : co.Holds 2 R C' (coordCell f) All3) (hC' : 0 < C') (hr : res.rows = R) (hc : res.cols = C) (h3 : 3 ≤ R)
    (h18 : R ≤ 18) : interpScan mc f co xyzIn res = .error .ub := by
  by_cases hn : C < nRight f + 2
  · exact interpScan_narrow_ub (by omega) (by omega)
  obtain ⟨r1, e1, s1, s2, _⟩ := mapLoop_shape (mc := mc) (co := co) (xyzIn := xyzIn) (res := res)
  unfold interpScan
  rw [e1]
  simp only [bind, Except.bind, if_neg hf]
  simp only [nRight, if_neg hf] at hn
  refine loop_error (P := fun _ s => s = r1) 0 (by omega) rfl (fun i s hi => absurd hi (by omega)) ?_
  rintro s rfl
  obtain ⟨p, e, q⟩ := extrapolateRight_ok (n := 1) (R := R) (C := C) (a := s.plane 0) (by omega)
    ⟨by simp only [Arr3.plane]; omega, by simp only [Arr3.plane]; omega, fun _ _ _ _ _ => rfl⟩
  simp only [e]
  rw [interpolate500_ub q hco (by omega) hC' h3 h18]

/-- Reduction of an error of the first scan to an error of the run. -/
theorem interpolateRF_ub {mc : MapCoord α} {rps f C n : Nat} (hrps : 0 < rps) (hn : 1 ≤ n)
    {lon lat : Arr2 α} (h1 : lon.rows = n * rps ∧ lon.cols = C) (h2 : lat.rows = n * rps ∧ lat.cols = C)
    (hbad : ∀ co xyzIn res : Arr3 α, co.Holds 2 (f * rps) (f * C) (coordCell f) All3 →
      res.rows = f * rps → res.cols = C * f → interpScan mc f co xyzIn res = .error .ub)
    (junk : Nat → Nat → Nat → Nat → α) : interpolateRF mc rps f lon lat junk = .error .ub := by
  obtain ⟨co, eco, hco⟩ := computeYX_ok (f := f) (R := f * rps) (C := f * C)
    (co := (⟨2, f * rps, f * lon.cols, junk 0⟩ : Arr3 α)) rfl rfl (by simp only [h1.2])
  have hnr : rps ≤ n * rps := Nat.le_mul_of_pos_left _ hn
  have hd : lon.rows / rps = n := by rw [h1.1]; exact Nat.mul_div_cancel _ hrps
  unfold interpolateRF
  rw [eco, hd]
  simp only [bind, Except.bind]
  rw [loop_error (e := .ub) (P := fun _ s => s = (⟨⟨rps, lon.cols, 3, junk 1⟩, ⟨f * rps, lon.cols * f, 3, junk 2⟩,
      (⟨f * lon.rows, f * lon.cols, junk 3 0⟩, ⟨f * lon.rows, f * lon.cols, junk 4 0⟩)⟩ : Bufs α)) 0 (by omega) rfl
      (fun i s hi => absurd hi (by omega))]
  rintro s rfl
  have hs : ∀ a : Arr2 α, a.rows = n * rps → (a.rowSlice (rps * 0) (rps * 0 + rps)).rows = rps := by
    intro a ha
    simp only [Arr2.rowSlice, ha]; omega
  obtain ⟨xyz, e1, px⟩ := lonlat2xyzArr_ok (lons := lon.rowSlice (rps * 0) (rps * 0 + rps))
    (lats := lat.rowSlice (rps * 0) (rps * 0 + rps)) (xyz := ⟨rps, lon.cols, 3, junk 1⟩)
    (hs _ h1.1) h1.2 (hs _ h2.1) h2.2 rfl h1.2 rfl
  unfold scanStep
  simp only [bind, Except.bind, e1]
  rw [hbad co xyz _ hco rfl (by simp only [h1.2])]

end Verif.ModisSimple
