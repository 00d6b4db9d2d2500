import Verif.Model.Multilinear5
import Verif.Props.Multilinear

/-!
# C85: the kernel for five dimensions
-/

namespace Verif.Multilinear
open Verif Verif.Spec
variable {α : Type} [Arith α]

theorem ix5_ok {M0 M1 M2 M3 q0 q1 q2 q3 q4 : Nat} (h : M0 * q0 + M1 * q1 + M2 * q2 + M3 * q3 + q4 < 2 ^ 31) :
    ix5 M0 M1 M2 M3 q0 q1 q2 q3 q4 = .ok ((M0 * q0 + M1 * q1 + M2 * q2 + M3 * q3 + q4 : Nat) : Int) := by
  unfold ix5
  rw [← Nat.cast_mul, ci_nat (by omega), ok_bind, ← Nat.cast_mul, ci_nat (by omega), ok_bind, ← Nat.cast_add,
    ci_nat (by omega), ok_bind, ← Nat.cast_mul, ci_nat (by omega), ok_bind, ← Nat.cast_add, ci_nat (by omega), ok_bind,
    ← Nat.cast_mul, ci_nat (by omega), ok_bind, ← Nat.cast_add, ci_nat (by omega), ok_bind, ← Nat.cast_add, ci_nat h]

theorem read5 {V : Arr1 α} {γ : Type} {f : α → Except Err γ} {n0 n1 n2 n3 n4 q0 q1 q2 q3 q4 : Nat}
    (hV : n0 * (n1 * (n2 * (n3 * n4))) ≤ V.len) (hb : n0 * (n1 * (n2 * (n3 * n4))) < 2 ^ 31) (h0 : q0 < n0) (h1 : q1 < n1)
    (h2 : q2 < n2) (h3 : q3 < n3) (h4 : q4 < n4) :
    (ix5 ((n1 * n2 * n3 * n4 : Nat) : Int) ((n2 * n3 * n4 : Nat) : Int) ((n3 * n4 : Nat) : Int) n4 q0 q1 q2 q3 q4 >>= fun j => V.rdZ j >>= f)
      = f (V.cell (ravel [n0, n1, n2, n3, n4] [q0, q1, q2, q3, q4])) := by
  have e : ravel [n0, n1, n2, n3, n4] [q0, q1, q2, q3, q4] =
      n1 * n2 * n3 * n4 * q0 + n2 * n3 * n4 * q1 + n3 * n4 * q2 + n4 * q3 + q4 := by
    simp [ravel]; ring
  have hlt : ravel [n0, n1, n2, n3, n4] [q0, q1, q2, q3, q4] < [n0, n1, n2, n3, n4].prod :=
    ravel_lt _ _ (by simp [h0, h1, h2, h3, h4])
  simp only [List.prod_cons, List.prod_nil, Nat.mul_one] at hlt
  rw [e] at hlt ⊢
  exact read _ (ix5_ok (by omega)) (by omega)

theorem point5d_ok (cast : α → Int) (smin smax V : Arr1 α) (n0 n1 n2 n3 n4 : Nat) (s : Arr2 α) (i : Nat) (hs : 5 ≤ s.rows)
    (hi : i < s.cols) (ha : 5 ≤ smin.len) (hb : 5 ≤ smax.len) (hn0 : 2 ≤ n0) (hn1 : 2 ≤ n1) (hn2 : 2 ≤ n2) (hn3 : 2 ≤ n3)
    (hn4 : 2 ≤ n4) (hV : n0 * (n1 * (n2 * (n3 * n4))) ≤ V.len) (hP : n0 * (n1 * (n2 * (n3 * n4))) < 2 ^ 31) :
    point5d cast smin smax V n0 n1 n2 n3 n4 ((n1 * n2 * n3 * n4 : Nat) : Int) ((n2 * n3 * n4 : Nat) : Int) ((n3 * n4 : Nat) : Int) n4 s i
      = .ok (mlin [coord cast (smin.cell 0) (smax.cell 0) n0 (s.cell 0 i),
      coord cast (smin.cell 1) (smax.cell 1) n1 (s.cell 1 i), coord cast (smin.cell 2) (smax.cell 2) n2 (s.cell 2 i),
      coord cast (smin.cell 3) (smax.cell 3) n3 (s.cell 3 i), coord cast (smin.cell 4) (smax.cell 4) n4 (s.cell 4 i)]
      (fun is => V.cell (ravel [n0, n1, n2, n3, n4] is))) := by
  unfold point5d
  rw [Arr2.rd_ok (by omega) hi, Arr2.rd_ok (by omega) hi, Arr2.rd_ok (by omega) hi, Arr2.rd_ok (by omega) hi,
    Arr2.rd_ok (by omega) hi, Arr1.rd_ok (by omega : 0 < smin.len),
    Arr1.rd_ok (by omega : 0 < smax.len), Arr1.rd_ok (by omega : 1 < smin.len), Arr1.rd_ok (by omega : 1 < smax.len),
    Arr1.rd_ok (by omega : 2 < smin.len), Arr1.rd_ok (by omega : 2 < smax.len),
    Arr1.rd_ok (by omega : 3 < smin.len), Arr1.rd_ok (by omega : 3 < smax.len),
    Arr1.rd_ok (by omega : 4 < smin.len), Arr1.rd_ok (by omega : 4 < smax.len)]
  simp only [ok_bind]
  simp only [coord_q]
  have h0 := coord_lt cast (smin.cell 0) (smax.cell 0) n0 (s.cell 0 i) hn0
  have h1 := coord_lt cast (smin.cell 1) (smax.cell 1) n1 (s.cell 1 i) hn1
  have h2 := coord_lt cast (smin.cell 2) (smax.cell 2) n2 (s.cell 2 i) hn2
  have h3 := coord_lt cast (smin.cell 3) (smax.cell 3) n3 (s.cell 3 i) hn3
  have h4 := coord_lt cast (smin.cell 4) (smax.cell 4) n4 (s.cell 4 i) hn4
  simp only [succ_cast]
  iterate 32 rw [read5 hV hP (by omega) (by omega) (by omega) (by omega) (by omega)]
  rfl

theorem interp5d_ok (cast : α → Int) (reorder : List Nat → List Nat) (smin smax : Arr1 α) (orders : Arr1 Int) (n0 n1 n2 n3 n4 : Nat)
    (V : Arr1 α) (n : Nat) (s : Arr2 α) (out : Arr1 α) (hz : Sized smin smax orders [n0, n1, n2, n3, n4])
    (hs : s.rows = 5) (hn : n ≤ s.cols) (hout : n ≤ out.len) (hV : [n0, n1, n2, n3, n4].prod ≤ V.len)
    (hre : (reorder (List.range n)).Perm (List.range n)) :
    interp5d cast reorder smin smax orders V n s out
      = .ok ⟨out.len, fun j => if j < n then
          mlin (coords cast smin smax [n0, n1, n2, n3, n4] (s.cell · j)) (fun is => V.cell (ravel [n0, n1, n2, n3, n4] is))
          else out.cell j⟩ := by
  obtain ⟨m1, m2, m3, m4, m5, m6⟩ := hz
  have small : ∀ m ∈ [n0, n1, n2, n3, n4], m < 2 ^ 31 := fun m hm => lt_of_le_of_lt (le_prod m5 hm) m6
  simp only [List.length_cons, List.length_nil] at *
  have o0 := m4 0 (by omega)
  have o1 := m4 1 (by omega)
  have o2 := m4 2 (by omega)
  have o3 := m4 3 (by omega)
  have o4 := m4 4 (by omega)
  simp only [List.getElem_cons_zero, List.getElem_cons_succ] at o0 o1 o2 o3 o4
  simp only [List.prod_cons, List.prod_nil, Nat.mul_one] at hV m6
  have t0 := m5 n0 (by simp)
  have t1 := m5 n1 (by simp)
  have t2 := m5 n2 (by simp)
  have t3 := m5 n3 (by simp)
  have t4 := m5 n4 (by simp)
  have a0 : n1 * (n2 * (n3 * n4)) < 2 ^ 31 := lt_of_le_of_lt (Nat.le_mul_of_pos_left _ (by omega)) m6
  have a1 : n2 * (n3 * n4) < 2 ^ 31 := lt_of_le_of_lt (Nat.le_mul_of_pos_left _ (by omega)) a0
  have a2 : n3 * n4 < 2 ^ 31 := lt_of_le_of_lt (Nat.le_mul_of_pos_left _ (by omega)) a1
  have b0 : n1 * n2 * n3 * n4 < 2 ^ 31 := by rw [Nat.mul_assoc, Nat.mul_assoc]; exact a0
  have b1 : n1 * n2 * n3 < 2 ^ 31 := lt_of_le_of_lt (Nat.le_mul_of_pos_right _ (by omega)) b0
  have b2 : n1 * n2 < 2 ^ 31 := lt_of_le_of_lt (Nat.le_mul_of_pos_right _ (by omega)) b1
  have c0 : n2 * n3 * n4 < 2 ^ 31 := by rw [Nat.mul_assoc]; exact a1
  have c1 : n2 * n3 < 2 ^ 31 := lt_of_le_of_lt (Nat.le_mul_of_pos_right _ (by omega)) c0
  unfold interp5d
  rw [Arr1.rd_ok (by omega), o0, ok_bind, wrap32_nat (small n0 (by simp)), Arr1.rd_ok (by omega), o1, ok_bind,
    wrap32_nat (small n1 (by simp)), Arr1.rd_ok (by omega), o2, ok_bind, wrap32_nat (small n2 (by simp)),
    Arr1.rd_ok (by omega), o3, ok_bind, wrap32_nat (small n3 (by simp)), Arr1.rd_ok (by omega), o4, ok_bind,
    wrap32_nat (small n4 (by simp))]
  dsimp only
  rw [← Nat.cast_mul, ci_nat b2, ok_bind, ← Nat.cast_mul, ci_nat b1, ok_bind, ← Nat.cast_mul, ci_nat b0, ok_bind,
    ← Nat.cast_mul, ci_nat c1, ok_bind, ← Nat.cast_mul, ci_nat c0, ok_bind, ← Nat.cast_mul, ci_nat a2, ok_bind,
    Int.toNat_natCast]
  refine prange_perm _ _ n _ hre out hout (fun i hi => ?_)
  exact point5d_ok cast smin smax V n0 n1 n2 n3 n4 s i (by omega) (by omega) (by omega) (by omega) t0 t1 t2 t3 t4 hV m6

end Verif.Multilinear

namespace Verif.Props
open Verif Verif.Spec Verif.Multilinear FP
variable {K : Type} [Field K] [LinearOrder K] [IsStrictOrderedRing K]

/-- **C85 (refused)**: points with five or more coordinates are refused, for any arithmetic. -/
theorem C85_refused {α : Type} [Arith α] (cast : α → Int) (reorder : Nat → List Nat → List Nat) (junk : Nat → Nat → α) (m : MLI α)
    (s : Arr2 α) (hv : m.values ≠ none) (hs : 5 ≤ s.rows) : m.interpolate cast reorder junk s = .error .exception := by
  unfold MLI.interpolate
  cases h : m.values with
  | none => exact absurd h hv
  | some v =>
    unfold multilinearInterpolation
    simp only
    rw [if_pos (by omega)]

/-- **C85 (the kernel)**: on a grid of five axes with at least two nodes each and fewer than `2^31` nodes, for any order of the
iterations and any conversion to `int`, the kernel for five dimensions reproduces every function affine in each coordinate, inside
and outside the grid. -/
theorem C85_exact (cast : FP K → Int) (reorder : List Nat → List Nat) (G : List (Axis K)) (h5 : G.length = 5)
    (h2 : ∀ g ∈ G, 2 ≤ g.n) (ht : (G.map Axis.n).prod < 2 ^ 31) (hne : ∀ g ∈ G, g.lo ≠ g.hi) (V out : Arr1 (FP K)) (s : Arr2 (FP K))
    (hV : (G.map Axis.n).prod ≤ V.len) (hs : s.rows = 5) (ho : s.cols ≤ out.len)
    (hre : (reorder (List.range s.cols)).Perm (List.range s.cols)) :
    ∃ r, interp5d cast reorder (Arr1.ofList 0 (G.map (fun g => val g.lo))) (Arr1.ofList 0 (G.map (fun g => val g.hi)))
        (Arr1.ofList 0 (G.map (fun g => (g.n : Int)))) V s.cols s out = .ok r ∧ r.len = out.len ∧
      ∀ f : List K → K, MultiAffine 5 f → (∀ is, Index G is → V.cell (ravel (G.map Axis.n) is) = val (f (nodeAt G is))) →
        ∀ j < s.cols, ∀ p : List K, p.length = 5 → AtPoint s j p → r.cell j = val (f p) := by
  have hz : Sized (Arr1.ofList (0 : FP K) (G.map (fun g => val g.lo))) (Arr1.ofList 0 (G.map (fun g => val g.hi)))
      (Arr1.ofList 0 (G.map (fun g => (g.n : Int)))) (G.map Axis.n) := by
    refine ⟨by simp [Arr1.ofList], by simp [Arr1.ofList], by simp [Arr1.ofList], ?_, ?_, ht⟩
    · intro k h
      simp only [List.length_map] at h
      simp [Arr1.ofList, List.getD, List.getElem?_eq_getElem h]
    · intro n hn
      obtain ⟨g, hg, rfl⟩ := List.mem_map.1 hn
      exact h2 g hg
  obtain ⟨g0, g1, g2, g3, g4, rfl⟩ : ∃ g0 g1 g2 g3 g4, G = [g0, g1, g2, g3, g4] := by
    match G, h5 with
    | [g0, g1, g2, g3, g4], _ => exact ⟨g0, g1, g2, g3, g4, rfl⟩
  refine ⟨_, interp5d_ok cast reorder _ _ _ g0.n g1.n g2.n g3.n g4.n V s.cols s out hz hs le_rfl ho hV hre, rfl, ?_⟩
  intro f hf hval j hj p hp hat
  simp only [if_pos hj]
  have := mlin_exact cast [g0, g1, g2, g3, g4] h2 hne (fun is => V.cell (ravel [g0.n, g1.n, g2.n, g3.n, g4.n] is)) f hf hval p hp
  rw [← this]
  congr 1
  apply List.ext_getElem
  · simp [coords, hp]
  · intro k a1 a2
    have hk : k < [g0, g1, g2, g3, g4].length := by simpa [coords] using a1
    have := hat k (by rw [hp]; exact hk)
    simp only [coords, List.getElem_map, List.getElem_range, List.getElem_zipWith, this, Arr1.ofList]
    have e1 : (List.map (fun g : Axis K => (val g.lo : FP K)) [g0, g1, g2, g3, g4]).getD k 0 = val ([g0, g1, g2, g3, g4][k]).lo := by
      rw [List.getD, List.getElem?_map, List.getElem?_eq_getElem hk]; rfl
    have e2 : (List.map (fun g : Axis K => (val g.hi : FP K)) [g0, g1, g2, g3, g4]).getD k 0 = val ([g0, g1, g2, g3, g4][k]).hi := by
      rw [List.getD, List.getElem?_map, List.getElem?_eq_getElem hk]; rfl
    have e3 : ([g0.n, g1.n, g2.n, g3.n, g4.n]).getD k 0 = ([g0, g1, g2, g3, g4][k]).n := by
      have : [g0.n, g1.n, g2.n, g3.n, g4.n] = [g0, g1, g2, g3, g4].map Axis.n := rfl
      rw [this, List.getD, List.getElem?_map, List.getElem?_eq_getElem hk]; rfl
    rw [e1, e2, e3]

/-! ### examples -/

example : (mli [(⟨0, 1, 2⟩ : Axis ℚ), ⟨0, 1, 2⟩, ⟨0, 1, 2⟩, ⟨0, 1, 2⟩, ⟨0, 1, 2⟩] ⟨1, 32, fun _ _ => val 1⟩).interpolate trunc backwards
    (fun _ _ => bad) ⟨5, 1, fun _ _ => val 0⟩ = .error .exception :=
  C85_refused _ _ _ _ _ (by simp [mli]) (by decide)

/-- five axes with nodes 0 and 1 -/
def cube5 : List (Axis ℚ) := List.replicate 5 ⟨0, 1, 2⟩

/-- the product of the coordinates, sampled on the grid, at the point `(2, 3, 5, 7, -1)`, outside the grid -/
example : ∃ r, interp5d trunc (backwards 0) (Arr1.ofList 0 (cube5.map (fun g => val g.lo)))
    (Arr1.ofList 0 (cube5.map (fun g => val g.hi))) (Arr1.ofList 0 (cube5.map (fun g => (g.n : Int))))
    ⟨32, fun k => if k = 31 then val 1 else val 0⟩ 1 ⟨5, 1, fun k _ => val ([2, 3, 5, 7, -1].getD k 0)⟩ ⟨1, fun _ => bad⟩ = .ok r ∧
    r.cell 0 = val (-210) := by
  obtain ⟨r, e, _, h⟩ := C85_exact trunc (backwards 0) cube5 rfl (by decide) (by decide) (by decide)
    ⟨32, fun k => if k = 31 then val 1 else val 0⟩ ⟨1, fun _ => bad⟩ ⟨5, 1, fun k _ => val ([2, 3, 5, 7, -1].getD k 0)⟩
    (by decide) rfl (by decide) (backwards_ok 1 0)
  refine ⟨r, e, ?_⟩
  rw [h List.prod ?_ ?_ 0 (by decide) [2, 3, 5, 7, -1] rfl ?_]
  · norm_num
  · intro pre x y t post _
    simp only [List.prod_append, List.prod_cons]; ring
  · intro is his
    simp only [Index, cube5, List.replicate, List.map_cons, List.map_nil] at his
    match is, his with
    | [a, b, c, d, e], his =>
      simp only [List.forall₂_cons] at his
      obtain ⟨ha, hb, hc, hd, he, _⟩ := his
      have ha' : a = 0 ∨ a = 1 := by omega
      have hb' : b = 0 ∨ b = 1 := by omega
      have hc' : c = 0 ∨ c = 1 := by omega
      have hd' : d = 0 ∨ d = 1 := by omega
      have he' : e = 0 ∨ e = 1 := by omega
      rcases ha' with rfl | rfl <;> rcases hb' with rfl | rfl <;> rcases hc' with rfl | rfl <;> rcases hd' with rfl | rfl <;>
        rcases he' with rfl | rfl <;> simp [ravel, cube5, nodeAt, node] <;> norm_num
    | [], his => simp at his
    | [_], his => simp at his
    | [_, _], his => simp at his
    | [_, _, _], his => simp at his
    | [_, _, _, _], his => simp at his
    | _ :: _ :: _ :: _ :: _ :: _ :: _, his => simp at his
  · intro k hk
    simp [List.getD, List.getElem?_eq_getElem hk]

end Verif.Props
