import Verif.Model.Multilinear
import Verif.Spec.Multilinear
import Mathlib.Data.List.Forall2

/-!
# Multilinear kernels: each kernel is the nested interpolation over its coordinates
-/

set_option linter.unusedSectionVars false

namespace Verif.Multilinear
open Verif Verif.Spec
variable {α : Type} [Arith α]

/-- nested linear interpolation: `cs` are the cell indices and weights, `V` the values at the nodes -/
def mlin : List (Nat × α) → (List Nat → α) → α
  | [], V => V []
  | (q, l) :: cs, V => (1 - l) * mlin cs (fun is => V (q :: is)) + l * mlin cs (fun is => V ((q + 1) :: is))

/-- cell index and weight of coordinate `x` -/
def coord (cast : α → Int) (a b : α) (n : Nat) (x : α) : Nat × α :=
  let t := (x - a) / (b - a) * Arith.ofInt ((n : Int) - 1)
  let q := (max (min (cast t) ((n : Int) - 2)) 0).toNat
  (q, t - Arith.ofInt (q : Int))

theorem coord_lt (cast : α → Int) (a b : α) (n : Nat) (x : α) (hn : 2 ≤ n) : (coord cast a b n x).1 + 1 < n := by
  simp only [coord]
  omega

theorem coord_q (cast : α → Int) (a b : α) (n : Nat) (x : α) :
    max (min (cast ((x - a) / (b - a) * Arith.ofInt ((n : Int) - 1))) ((n : Int) - 2)) 0
      = (((coord cast a b n x).1 : Nat) : Int) := by
  simp only [coord]
  omega

/-! ### integers -/

theorem wrap32_nat {n : Nat} (h : n < 2 ^ 31) : wrap32 (n : Int) = n := by
  unfold wrap32
  omega

theorem ci_nat {n : Nat} (h : n < 2 ^ 31) : ci (n : Int) = .ok (n : Int) := by
  unfold ci
  rw [if_pos]
  omega

theorem ravel_lt : ∀ (ns is : List Nat), List.Forall₂ (fun i n => i < n) is ns → ravel ns is < ns.prod := by
  intro ns is h
  induction h with
  | nil => simp [ravel]
  | @cons i n is ns hi _ ih =>
    rw [ravel, List.prod_cons]
    calc i * ns.prod + ravel ns is < i * ns.prod + ns.prod := by omega
      _ = (i + 1) * ns.prod := by ring
      _ ≤ n * ns.prod := Nat.mul_le_mul_right _ hi

theorem ok_bind {β γ : Type} (x : β) (f : β → Except Err γ) : (Except.ok x >>= f) = f x := rfl

theorem read {V : Arr1 α} {e : Except Err Int} {n : Nat} {γ : Type} (f : α → Except Err γ) (he : e = .ok (n : Int))
    (h : n < V.len) : (e >>= fun j => V.rdZ j >>= f) = f (V.cell n) := by
  subst he
  rw [ok_bind]
  unfold Arr1.rdZ
  rw [if_pos (by omega), Int.toNat_natCast, Arr1.rd_ok h, ok_bind]

theorem ix1_ok {q0 : Nat} (h : q0 < 2 ^ 31) : ix1 q0 = .ok ((q0 : Nat) : Int) := ci_nat h

theorem ix2_ok {M0 q0 q1 : Nat} (h : M0 * q0 + q1 < 2 ^ 31) : ix2 M0 q0 q1 = .ok ((M0 * q0 + q1 : Nat) : Int) := by
  unfold ix2
  rw [← Nat.cast_mul, ci_nat (by omega), ok_bind, ← Nat.cast_add, ci_nat h]

theorem ix3_ok {M0 M1 q0 q1 q2 : Nat} (h : M0 * q0 + M1 * q1 + q2 < 2 ^ 31) :
    ix3 M0 M1 q0 q1 q2 = .ok ((M0 * q0 + M1 * q1 + q2 : Nat) : Int) := by
  unfold ix3
  rw [← Nat.cast_mul, ci_nat (by omega), ok_bind, ← Nat.cast_mul, ci_nat (by omega), ok_bind, ← Nat.cast_add,
    ci_nat (by omega), ok_bind, ← Nat.cast_add, ci_nat h]

theorem ix4_ok {M0 M1 M2 q0 q1 q2 q3 : Nat} (h : M0 * q0 + M1 * q1 + M2 * q2 + q3 < 2 ^ 31) :
    ix4 M0 M1 M2 q0 q1 q2 q3 = .ok ((M0 * q0 + M1 * q1 + M2 * q2 + q3 : Nat) : Int) := by
  unfold ix4
  rw [← Nat.cast_mul, ci_nat (by omega), ok_bind, ← Nat.cast_mul, ci_nat (by omega), ok_bind, ← Nat.cast_add,
    ci_nat (by omega), ok_bind, ← Nat.cast_mul, ci_nat (by omega), ok_bind, ← Nat.cast_add, ci_nat (by omega), ok_bind,
    ← Nat.cast_add, ci_nat h]

theorem read1 {V : Arr1 α} {γ : Type} {f : α → Except Err γ} {n0 q0 : Nat} (hV : n0 ≤ V.len) (hb : n0 < 2 ^ 31) (h0 : q0 < n0) :
    (ix1 q0 >>= fun j => V.rdZ j >>= f) = f (V.cell (ravel [n0] [q0])) := by
  have e : ravel [n0] [q0] = q0 := by simp [ravel]
  rw [e]
  exact read _ (ix1_ok (by omega)) (by omega)

theorem read2 {V : Arr1 α} {γ : Type} {f : α → Except Err γ} {n0 n1 q0 q1 : Nat} (hV : n0 * n1 ≤ V.len) (hb : n0 * n1 < 2 ^ 31) (h0 : q0 < n0)
    (h1 : q1 < n1) : (ix2 n1 q0 q1 >>= fun j => V.rdZ j >>= f) = f (V.cell (ravel [n0, n1] [q0, q1])) := by
  have e : ravel [n0, n1] [q0, q1] = n1 * q0 + q1 := by simp [ravel]; ring
  have hlt : ravel [n0, n1] [q0, q1] < [n0, n1].prod := ravel_lt _ _ (by simp [h0, h1])
  simp only [List.prod_cons, List.prod_nil, Nat.mul_one] at hlt
  rw [e] at hlt ⊢
  exact read _ (ix2_ok (by omega)) (by omega)

theorem read3 {V : Arr1 α} {γ : Type} {f : α → Except Err γ} {n0 n1 n2 q0 q1 q2 : Nat} (hV : n0 * (n1 * n2) ≤ V.len) (hb : n0 * (n1 * n2) < 2 ^ 31)
    (h0 : q0 < n0) (h1 : q1 < n1) (h2 : q2 < n2) :
    (ix3 ((n1 * n2 : Nat) : Int) n2 q0 q1 q2 >>= fun j => V.rdZ j >>= f) = f (V.cell (ravel [n0, n1, n2] [q0, q1, q2])) := by
  have e : ravel [n0, n1, n2] [q0, q1, q2] = n1 * n2 * q0 + n2 * q1 + q2 := by simp [ravel]; ring
  have hlt : ravel [n0, n1, n2] [q0, q1, q2] < [n0, n1, n2].prod := ravel_lt _ _ (by simp [h0, h1, h2])
  simp only [List.prod_cons, List.prod_nil, Nat.mul_one] at hlt
  rw [e] at hlt ⊢
  exact read _ (ix3_ok (by omega)) (by omega)

theorem read4 {V : Arr1 α} {γ : Type} {f : α → Except Err γ} {n0 n1 n2 n3 q0 q1 q2 q3 : Nat} (hV : n0 * (n1 * (n2 * n3)) ≤ V.len)
    (hb : n0 * (n1 * (n2 * n3)) < 2 ^ 31) (h0 : q0 < n0) (h1 : q1 < n1) (h2 : q2 < n2) (h3 : q3 < n3) :
    (ix4 ((n1 * n2 * n3 : Nat) : Int) ((n2 * n3 : Nat) : Int) n3 q0 q1 q2 q3 >>= fun j => V.rdZ j >>= f) = f (V.cell (ravel [n0, n1, n2, n3] [q0, q1, q2, q3])) := by
  have e : ravel [n0, n1, n2, n3] [q0, q1, q2, q3] = n1 * n2 * n3 * q0 + n2 * n3 * q1 + n3 * q2 + q3 := by
    simp [ravel]; ring
  have hlt : ravel [n0, n1, n2, n3] [q0, q1, q2, q3] < [n0, n1, n2, n3].prod := ravel_lt _ _ (by simp [h0, h1, h2, h3])
  simp only [List.prod_cons, List.prod_nil, Nat.mul_one] at hlt
  rw [e] at hlt ⊢
  exact read _ (ix4_ok (by omega)) (by omega)

/-! ### the kernels -/

theorem succ_cast (q : Nat) : (q : Int) + 1 = ((q + 1 : Nat) : Int) := by push_cast; rfl

theorem point1d_ok (cast : α → Int) (smin smax V : Arr1 α) (n0 : Nat) (s : Arr2 α) (i : Nat) (hs : 1 ≤ s.rows)
    (hi : i < s.cols) (ha : 1 ≤ smin.len) (hb : 1 ≤ smax.len) (hn0 : 2 ≤ n0) (hV : n0 ≤ V.len) (hP : n0 < 2 ^ 31) :
    point1d cast smin smax V n0 s i = .ok (mlin [coord cast (smin.cell 0) (smax.cell 0) n0 (s.cell 0 i)]
      (fun is => V.cell (ravel [n0] is))) := by
  unfold point1d
  rw [Arr2.rd_ok (by omega) hi, Arr1.rd_ok (by omega : 0 < smin.len), Arr1.rd_ok (by omega : 0 < smax.len)]
  simp only [ok_bind]
  simp only [coord_q]
  have h0 := coord_lt cast (smin.cell 0) (smax.cell 0) n0 (s.cell 0 i) hn0
  simp only [succ_cast]
  iterate 2 rw [read1 hV hP (by omega)]
  rfl

theorem point2d_ok (cast : α → Int) (smin smax V : Arr1 α) (n0 n1 : Nat) (s : Arr2 α) (i : Nat) (hs : 2 ≤ s.rows)
    (hi : i < s.cols) (ha : 2 ≤ smin.len) (hb : 2 ≤ smax.len) (hn0 : 2 ≤ n0) (hn1 : 2 ≤ n1) (hV : n0 * n1 ≤ V.len)
    (hP : n0 * n1 < 2 ^ 31) :
    point2d cast smin smax V n0 n1 n1 s i = .ok (mlin [coord cast (smin.cell 0) (smax.cell 0) n0 (s.cell 0 i),
      coord cast (smin.cell 1) (smax.cell 1) n1 (s.cell 1 i)] (fun is => V.cell (ravel [n0, n1] is))) := by
  unfold point2d
  rw [Arr2.rd_ok (by omega) hi, Arr2.rd_ok (by omega) hi, Arr1.rd_ok (by omega : 0 < smin.len),
    Arr1.rd_ok (by omega : 0 < smax.len), Arr1.rd_ok (by omega : 1 < smin.len), Arr1.rd_ok (by omega : 1 < smax.len)]
  simp only [ok_bind]
  simp only [coord_q]
  have h0 := coord_lt cast (smin.cell 0) (smax.cell 0) n0 (s.cell 0 i) hn0
  have h1 := coord_lt cast (smin.cell 1) (smax.cell 1) n1 (s.cell 1 i) hn1
  simp only [succ_cast]
  iterate 4 rw [read2 hV hP (by omega) (by omega)]
  rfl

theorem point3d_ok (cast : α → Int) (smin smax V : Arr1 α) (n0 n1 n2 : Nat) (s : Arr2 α) (i : Nat) (hs : 3 ≤ s.rows)
    (hi : i < s.cols) (ha : 3 ≤ smin.len) (hb : 3 ≤ smax.len) (hn0 : 2 ≤ n0) (hn1 : 2 ≤ n1) (hn2 : 2 ≤ n2)
    (hV : n0 * (n1 * n2) ≤ V.len) (hP : n0 * (n1 * n2) < 2 ^ 31) :
    point3d cast smin smax V n0 n1 n2 ((n1 * n2 : Nat) : Int) n2 s i
      = .ok (mlin [coord cast (smin.cell 0) (smax.cell 0) n0 (s.cell 0 i),
      coord cast (smin.cell 1) (smax.cell 1) n1 (s.cell 1 i), coord cast (smin.cell 2) (smax.cell 2) n2 (s.cell 2 i)]
      (fun is => V.cell (ravel [n0, n1, n2] is))) := by
  unfold point3d
  rw [Arr2.rd_ok (by omega) hi, Arr2.rd_ok (by omega) hi, Arr2.rd_ok (by omega) hi,
    Arr1.rd_ok (by omega : 0 < smin.len),
    Arr1.rd_ok (by omega : 0 < smax.len), Arr1.rd_ok (by omega : 1 < smin.len), Arr1.rd_ok (by omega : 1 < smax.len),
    Arr1.rd_ok (by omega : 2 < smin.len), Arr1.rd_ok (by omega : 2 < smax.len)]
  simp only [ok_bind]
  simp only [coord_q]
  have h0 := coord_lt cast (smin.cell 0) (smax.cell 0) n0 (s.cell 0 i) hn0
  have h1 := coord_lt cast (smin.cell 1) (smax.cell 1) n1 (s.cell 1 i) hn1
  have h2 := coord_lt cast (smin.cell 2) (smax.cell 2) n2 (s.cell 2 i) hn2
  simp only [succ_cast]
  iterate 8 rw [read3 hV hP (by omega) (by omega) (by omega)]
  rfl

theorem point4d_ok (cast : α → Int) (smin smax V : Arr1 α) (n0 n1 n2 n3 : Nat) (s : Arr2 α) (i : Nat) (hs : 4 ≤ s.rows)
    (hi : i < s.cols) (ha : 4 ≤ smin.len) (hb : 4 ≤ smax.len) (hn0 : 2 ≤ n0) (hn1 : 2 ≤ n1) (hn2 : 2 ≤ n2) (hn3 : 2 ≤ n3)
    (hV : n0 * (n1 * (n2 * n3)) ≤ V.len) (hP : n0 * (n1 * (n2 * n3)) < 2 ^ 31) :
    point4d cast smin smax V n0 n1 n2 n3 ((n1 * n2 * n3 : Nat) : Int) ((n2 * n3 : Nat) : Int) n3 s i
      = .ok (mlin [coord cast (smin.cell 0) (smax.cell 0) n0 (s.cell 0 i),
      coord cast (smin.cell 1) (smax.cell 1) n1 (s.cell 1 i), coord cast (smin.cell 2) (smax.cell 2) n2 (s.cell 2 i),
      coord cast (smin.cell 3) (smax.cell 3) n3 (s.cell 3 i)]
      (fun is => V.cell (ravel [n0, n1, n2, n3] is))) := by
  unfold point4d
  rw [Arr2.rd_ok (by omega) hi, Arr2.rd_ok (by omega) hi, Arr2.rd_ok (by omega) hi, Arr2.rd_ok (by omega) hi,
    Arr1.rd_ok (by omega : 0 < smin.len),
    Arr1.rd_ok (by omega : 0 < smax.len), Arr1.rd_ok (by omega : 1 < smin.len), Arr1.rd_ok (by omega : 1 < smax.len),
    Arr1.rd_ok (by omega : 2 < smin.len), Arr1.rd_ok (by omega : 2 < smax.len),
    Arr1.rd_ok (by omega : 3 < smin.len), Arr1.rd_ok (by omega : 3 < smax.len)]
  simp only [ok_bind]
  simp only [coord_q]
  have h0 := coord_lt cast (smin.cell 0) (smax.cell 0) n0 (s.cell 0 i) hn0
  have h1 := coord_lt cast (smin.cell 1) (smax.cell 1) n1 (s.cell 1 i) hn1
  have h2 := coord_lt cast (smin.cell 2) (smax.cell 2) n2 (s.cell 2 i) hn2
  have h3 := coord_lt cast (smin.cell 3) (smax.cell 3) n3 (s.cell 3 i) hn3
  simp only [succ_cast]
  iterate 16 rw [read4 hV hP (by omega) (by omega) (by omega) (by omega)]
  rfl

end Verif.Multilinear

namespace Verif.Multilinear
open Verif Verif.Spec
variable {α : Type} [Arith α]

/-! ### the parallel loop -/

theorem prange_ok (g : Nat → α) (point : Nat → Except Err α) : ∀ (l : List Nat) (out : Arr1 α),
    (∀ i ∈ l, i < out.len ∧ point i = .ok (g i)) →
    prange l point out = .ok ⟨out.len, fun j => if j ∈ l then g j else out.cell j⟩ := by
  intro l
  induction l with
  | nil => intro out _; simp [prange]
  | cons i l ih =>
    intro out h
    obtain ⟨h1, h2⟩ := h i (by simp)
    rw [prange, h2, ok_bind]
    have hw : out.wr i (g i) = .ok ⟨out.len, fun i' => if i' = i then g i else out.cell i'⟩ := by
      unfold Arr1.wr
      rw [if_pos h1]
    rw [hw, ok_bind, ih ⟨out.len, fun i' => if i' = i then g i else out.cell i'⟩ (fun k hk => h k (by simp [hk]))]
    congr 2
    funext j
    by_cases hj : j ∈ l
    · simp [hj]
    · by_cases hji : j = i
      · subst hji; simp [hj]
      · simp [hj, hji]

theorem prange_perm (g : Nat → α) (point : Nat → Except Err α) (n : Nat) (l : List Nat) (hl : l.Perm (List.range n))
    (out : Arr1 α) (hn : n ≤ out.len) (h : ∀ i < n, point i = .ok (g i)) :
    prange l point out = .ok ⟨out.len, fun j => if j < n then g j else out.cell j⟩ := by
  rw [prange_ok g point l out]
  · congr 2
    funext j
    simp only [hl.mem_iff, List.mem_range]
  · intro i hi
    rw [hl.mem_iff, List.mem_range] at hi
    exact ⟨by omega, h i hi⟩

/-! ### all dimensions together -/

/-- the grid has `ns` nodes along its dimensions, at least two along each, and fewer than `2^31` in all -/
structure Sized (smin smax : Arr1 α) (orders : Arr1 Int) (ns : List Nat) : Prop where
  min : smin.len = ns.length
  max : smax.len = ns.length
  len : orders.len = ns.length
  orders : ∀ k (h : k < ns.length), orders.cell k = (ns[k] : Int)
  two : ∀ n ∈ ns, 2 ≤ n
  total : ns.prod < 2 ^ 31

theorem le_prod {ns : List Nat} (h : ∀ n ∈ ns, 2 ≤ n) {n : Nat} (hn : n ∈ ns) : n ≤ ns.prod := by
  refine Nat.le_of_dvd ?_ (List.dvd_prod hn)
  clear hn
  induction ns with
  | nil => simp
  | cons m ns ih =>
    rw [List.prod_cons]
    exact Nat.mul_pos (by have := h m (by simp); omega) (ih (fun a ha => h a (by simp [ha])))

/-- cell indices and weights of the point `x` -/
def coords (cast : α → Int) (smin smax : Arr1 α) (ns : List Nat) (x : Nat → α) : List (Nat × α) :=
  (List.range ns.length).map (fun k => coord cast (smin.cell k) (smax.cell k) (ns.getD k 0) (x k))

theorem row_ok (cast : α → Int) (reorder : List Nat → List Nat) (smin smax : Arr1 α) (orders : Arr1 Int) (ns : List Nat)
    (V : Arr1 α) (n : Nat) (s : Arr2 α) (out : Arr1 α) (hz : Sized smin smax orders ns) (h1 : 1 ≤ ns.length)
    (h4 : ns.length ≤ 4) (hs : s.rows = ns.length) (hn : n ≤ s.cols) (hout : n ≤ out.len) (hV : ns.prod ≤ V.len)
    (hre : (reorder (List.range n)).Perm (List.range n)) :
    (if s.rows = 1 then interp1d cast reorder smin smax orders V n s out
      else if s.rows = 2 then interp2d cast reorder smin smax orders V n s out
      else if s.rows = 3 then interp3d cast reorder smin smax orders V n s out
      else if s.rows = 4 then interp4d cast reorder smin smax orders V n s out
      else .ok out)
      = .ok ⟨out.len, fun j => if j < n then
          mlin (coords cast smin smax ns (s.cell · j)) (fun is => V.cell (ravel ns is)) else out.cell j⟩ := by
  obtain ⟨m1, m2, m3, m4, m5, m6⟩ := hz
  have small : ∀ m ∈ ns, m < 2 ^ 31 := fun m hm => lt_of_le_of_lt (le_prod m5 hm) m6
  match ns, h1, h4 with
  | [n0], _, _ =>
    simp only [List.length_cons, List.length_nil] at *
    rw [hs, if_pos rfl]
    have o0 := m4 0 (by omega)
    simp only [List.getElem_cons_zero] at o0
    unfold interp1d
    rw [Arr1.rd_ok (by omega), o0, ok_bind, wrap32_nat (small n0 (by simp)), Int.toNat_natCast]
    refine prange_perm _ _ n _ hre out hout (fun i hi => ?_)
    simp only [List.prod_cons, List.prod_nil, Nat.mul_one] at hV m6
    exact point1d_ok cast smin smax V n0 s i (by omega) (by omega) (by omega) (by omega) (m5 n0 (by simp)) hV m6
  | [n0, n1], _, _ =>
    simp only [List.length_cons, List.length_nil] at *
    rw [hs, if_neg (by omega), if_pos rfl]
    have o0 := m4 0 (by omega)
    have o1 := m4 1 (by omega)
    simp only [List.getElem_cons_zero, List.getElem_cons_succ] at o0 o1
    unfold interp2d
    rw [Arr1.rd_ok (by omega), o0, ok_bind, wrap32_nat (small n0 (by simp)), Arr1.rd_ok (by omega), o1, ok_bind,
      wrap32_nat (small n1 (by simp)), Int.toNat_natCast]
    refine prange_perm _ _ n _ hre out hout (fun i hi => ?_)
    simp only [List.prod_cons, List.prod_nil, Nat.mul_one] at hV m6
    exact point2d_ok cast smin smax V n0 n1 s i (by omega) (by omega) (by omega) (by omega) (m5 n0 (by simp))
      (m5 n1 (by simp)) hV m6
  | [n0, n1, n2], _, _ =>
    simp only [List.length_cons, List.length_nil] at *
    rw [hs, if_neg (by omega), if_neg (by omega), if_pos rfl]
    have o0 := m4 0 (by omega)
    have o1 := m4 1 (by omega)
    have o2 := m4 2 (by omega)
    simp only [List.getElem_cons_zero, List.getElem_cons_succ] at o0 o1 o2
    simp only [List.prod_cons, List.prod_nil, Nat.mul_one] at hV m6
    have t0 := m5 n0 (by simp)
    have hM : n1 * n2 < 2 ^ 31 := lt_of_le_of_lt (Nat.le_mul_of_pos_left _ (by omega)) m6
    unfold interp3d
    rw [Arr1.rd_ok (by omega), o0, ok_bind, wrap32_nat (small n0 (by simp)), Arr1.rd_ok (by omega), o1, ok_bind,
      wrap32_nat (small n1 (by simp)), Arr1.rd_ok (by omega), o2, ok_bind, wrap32_nat (small n2 (by simp))]
    dsimp only
    rw [← Nat.cast_mul, ci_nat hM, ok_bind, Int.toNat_natCast]
    refine prange_perm _ _ n _ hre out hout (fun i hi => ?_)
    exact point3d_ok cast smin smax V n0 n1 n2 s i (by omega) (by omega) (by omega) (by omega) t0
      (m5 n1 (by simp)) (m5 n2 (by simp)) hV m6
  | [n0, n1, n2, n3], _, _ =>
    simp only [List.length_cons, List.length_nil] at *
    rw [hs, if_neg (by omega), if_neg (by omega), if_neg (by omega), if_pos rfl]
    have o0 := m4 0 (by omega)
    have o1 := m4 1 (by omega)
    have o2 := m4 2 (by omega)
    have o3 := m4 3 (by omega)
    simp only [List.getElem_cons_zero, List.getElem_cons_succ] at o0 o1 o2 o3
    simp only [List.prod_cons, List.prod_nil, Nat.mul_one] at hV m6
    have t0 := m5 n0 (by simp)
    have t1 := m5 n1 (by simp)
    have t3 := m5 n3 (by simp)
    have hM : n1 * (n2 * n3) < 2 ^ 31 := lt_of_le_of_lt (Nat.le_mul_of_pos_left _ (by omega)) m6
    have hM1 : n2 * n3 < 2 ^ 31 := lt_of_le_of_lt (Nat.le_mul_of_pos_left _ (by omega)) hM
    have hM0 : n1 * n2 * n3 < 2 ^ 31 := by rw [Nat.mul_assoc]; exact hM
    have hM2 : n1 * n2 < 2 ^ 31 := lt_of_le_of_lt (Nat.le_mul_of_pos_right _ (by omega)) hM0
    unfold interp4d
    rw [Arr1.rd_ok (by omega), o0, ok_bind, wrap32_nat (small n0 (by simp)), Arr1.rd_ok (by omega), o1, ok_bind,
      wrap32_nat (small n1 (by simp)), Arr1.rd_ok (by omega), o2, ok_bind, wrap32_nat (small n2 (by simp)),
      Arr1.rd_ok (by omega), o3, ok_bind, wrap32_nat (small n3 (by simp))]
    dsimp only
    rw [← Nat.cast_mul, ci_nat hM2, ok_bind, ← Nat.cast_mul, ci_nat hM0, ok_bind, ← Nat.cast_mul, ci_nat hM1, ok_bind,
      Int.toNat_natCast]
    refine prange_perm _ _ n _ hre out hout (fun i hi => ?_)
    exact point4d_ok cast smin smax V n0 n1 n2 n3 s i (by omega) (by omega) (by omega) (by omega) t0
      t1 (m5 n2 (by simp)) t3 hV m6

/-- what `multilinear_interpolation` computes, for any arithmetic, any conversion to `int` and any schedule -/
theorem multi_ok (cast : α → Int) (reorder : Nat → List Nat → List Nat) (junk : Nat → Nat → α) (smin smax : Arr1 α)
    (orders : Arr1 Int) (ns : List Nat) (values s : Arr2 α) (hz : Sized smin smax orders ns) (h1 : 1 ≤ ns.length)
    (h4 : ns.length ≤ 4) (hs : s.rows = ns.length) (hn : s.cols < 2 ^ 31) (hV : ns.prod ≤ values.cols)
    (hre : ∀ i, (reorder i (List.range s.cols)).Perm (List.range s.cols)) :
    ∃ r, multilinearInterpolation cast reorder junk smin smax orders values s = .ok r ∧ r.rows = values.rows ∧
      r.cols = s.cols ∧ ∀ i < values.rows, ∀ j < s.cols,
        r.cell i j = mlin (coords cast smin smax ns (s.cell · j)) (fun is => values.cell i (ravel ns is)) := by
  unfold multilinearInterpolation
  simp only
  rw [if_neg (by omega), wrap32_nat hn]
  obtain ⟨r, e, h⟩ := loop_ok (n := values.rows)
    (body := fun i result => do
      let vals := rowView values i
      let res := rowView result i
      let res ←
        if s.rows = 1 then interp1d cast (reorder i) smin smax orders vals (s.cols : Int) s res
        else if s.rows = 2 then interp2d cast (reorder i) smin smax orders vals (s.cols : Int) s res
        else if s.rows = 3 then interp3d cast (reorder i) smin smax orders vals (s.cols : Int) s res
        else if s.rows = 4 then interp4d cast (reorder i) smin smax orders vals (s.cols : Int) s res
        else .ok res
      .ok (setRow result i res)) (s := ⟨values.rows, s.cols, junk⟩)
    (fun k r => r.rows = values.rows ∧ r.cols = s.cols ∧ ∀ i < k, ∀ j < s.cols,
        r.cell i j = mlin (coords cast smin smax ns (s.cell · j)) (fun is => values.cell i (ravel ns is)))
    ⟨rfl, rfl, fun i hi => by omega⟩ (by
      intro k r hk ⟨p1, p2, p3⟩
      have hr := row_ok cast (reorder k) smin smax orders ns (rowView values k) s.cols s (rowView r k) hz h1 h4 hs
        le_rfl (by simp [rowView, p2]) (by simpa [rowView] using hV) (hre k)
      have hr' := congrArg (· >>= fun res => Except.ok (ε := Err) (setRow r k res)) hr
      simp only [ok_bind] at hr'
      refine ⟨_, Eq.trans ?_ hr', p1, p2, ?_⟩
      · simp only
        split_ifs <;> rfl
      intro i hi j hj
      simp only [setRow]
      by_cases hik : i = k
      · subst hik
        simp [hj, rowView]
      · rw [if_neg hik]
        exact p3 i (by omega) j hj)
  exact ⟨r, e, h⟩

/-! ### exact arithmetic -/

section Num
variable {K : Type} [Field K] [LinearOrder K] [IsStrictOrderedRing K]
open FP

theorem mlin_node (cs : List (Nat × FP K)) (is : List Nat)
    (h : List.Forall₂ (fun c i => (c.1 = i ∧ c.2 = val 0) ∨ (c.1 + 1 = i ∧ c.2 = val 1)) cs is) (W : List Nat → K) :
    mlin cs (fun is => val (W is)) = val (W is) := by
  induction h generalizing W with
  | nil => rfl
  | @cons c i cs is hc _ ih =>
    obtain ⟨q, l⟩ := c
    simp only [mlin]
    rw [ih (fun is => W (q :: is)), ih (fun is => W ((q + 1) :: is))]
    rcases hc with ⟨h1, h2⟩ | ⟨h1, h2⟩ <;> simp only at h1 h2 <;> subst h1 h2 <;> simp

/-- a coordinate: position of the nodes, cell index, weight -/
structure Dim (K : Type) where
  at_ : Nat → K
  q : Nat
  l : K

theorem mlin_affine (D : List (Dim K)) (f : List K → K) (pre : List K) (hf : MultiAffine (pre.length + D.length) f) :
    mlin (D.map (fun d => (d.q, val d.l))) (fun is => val (f (pre ++ List.zipWith (fun (d : Dim K) i => d.at_ i) D is)))
      = val (f (pre ++ D.map (fun d => (1 - d.l) * d.at_ d.q + d.l * d.at_ (d.q + 1)))) := by
  induction D generalizing pre with
  | nil => simp [mlin]
  | cons d D ih =>
    have ih' := fun x => ih (pre ++ [x]) (by
      have : (pre ++ [x]).length + D.length = pre.length + (d :: D).length := by simp; omega
      rw [this]; exact hf)
    simp only [List.append_assoc, List.cons_append, List.nil_append] at ih'
    simp only [List.map_cons, mlin, List.zipWith_cons_cons]
    rw [ih' (d.at_ d.q), ih' (d.at_ (d.q + 1)), hf pre (d.at_ d.q) (d.at_ (d.q + 1)) d.l _ (by simp; omega)]
    simp

theorem mlin_between (cs : List (Nat × K)) (ns : List Nat)
    (h : List.Forall₂ (fun c n => c.1 + 1 < n ∧ 0 ≤ c.2 ∧ c.2 ≤ 1) cs ns) (W : List Nat → K) (lo hi : K)
    (hW : ∀ is, List.Forall₂ (fun i n => i < n) is ns → lo ≤ W is ∧ W is ≤ hi) :
    ∃ v, mlin (cs.map (fun c => (c.1, val c.2))) (fun is => val (W is)) = val v ∧ lo ≤ v ∧ v ≤ hi := by
  induction h generalizing W with
  | nil => exact ⟨W [], rfl, hW [] List.Forall₂.nil⟩
  | @cons c n cs ns hc _ ih =>
    obtain ⟨hq, hl0, hl1⟩ := hc
    obtain ⟨a, ea, a1, a2⟩ := ih (fun is => W (c.1 :: is)) (fun is his => hW _ (List.Forall₂.cons (by omega) his))
    obtain ⟨b, eb, b1, b2⟩ := ih (fun is => W ((c.1 + 1) :: is)) (fun is his => hW _ (List.Forall₂.cons hq his))
    refine ⟨(1 - c.2) * a + c.2 * b, ?_, ?_, ?_⟩
    · simp only [List.map_cons, mlin]
      rw [ea, eb]
      simp
    · have h1 := mul_le_mul_of_nonneg_left a1 (sub_nonneg.2 hl1)
      have h2 := mul_le_mul_of_nonneg_left b1 hl0
      linarith
    · have h1 := mul_le_mul_of_nonneg_left a2 (sub_nonneg.2 hl1)
      have h2 := mul_le_mul_of_nonneg_left b2 hl0
      linarith

/-- normalised coordinate -/
def norm (a b : K) (n : Nat) (x : K) : K := (x - a) / (b - a) * ((n : K) - 1)

theorem coord_val (cast : FP K → Int) (a b : K) (n : Nat) (x : K) (hab : a ≠ b) :
    coord cast (val a) (val b) n (val x)
      = ((max (min (cast (val (norm a b n x))) ((n : Int) - 2)) 0).toNat,
        val (norm a b n x - ((max (min (cast (val (norm a b n x))) ((n : Int) - 2)) 0).toNat : K))) := by
  have hne : b - a ≠ 0 := sub_ne_zero.2 (Ne.symm hab)
  unfold coord norm
  simp [hne]
  generalize cast (val ((x - a) / (b - a) * ((n : K) - 1))) = z
  have h : (((max (min z ((n : Int) - 2)) 0).toNat : Nat) : Int) = max (min z ((n : Int) - 2)) 0 :=
    Int.toNat_of_nonneg (by omega)
  have h' := congrArg (Int.cast (R := K)) h
  rw [Int.cast_natCast] at h'
  rw [h']
  push_cast
  rfl

theorem norm_node (a b : K) (n : Nat) (x : K) (hab : a ≠ b) (hn : 2 ≤ n) (q : Nat) :
    (1 - (norm a b n x - (q : K))) * node a b n q + (norm a b n x - (q : K)) * node a b n (q + 1) = x := by
  have hne : b - a ≠ 0 := sub_ne_zero.2 (Ne.symm hab)
  have hn1 : (n : K) - 1 ≠ 0 := by
    have : (2 : K) ≤ n := by exact_mod_cast hn
    intro h
    linarith
  unfold norm node
  push_cast
  field_simp
  ring

/-- inside the grid the weight is between 0 and 1 -/
theorem norm_inside (cast : FP K → Int) (hcast : CTrunc cast) (a b : K) (n : Nat) (x : K) (hab : a < b) (h1 : a ≤ x)
    (h2 : x ≤ b) (hn : 2 ≤ n) (hn31 : n < 2 ^ 31) :
    0 ≤ norm a b n x - ((max (min (cast (val (norm a b n x))) ((n : Int) - 2)) 0).toNat : K) ∧
    norm a b n x - ((max (min (cast (val (norm a b n x))) ((n : Int) - 2)) 0).toNat : K) ≤ 1 := by
  have hba : 0 < b - a := sub_pos.2 hab
  have hn1 : (0 : K) ≤ (n : K) - 1 := by
    have : (2 : K) ≤ n := by exact_mod_cast hn
    linarith
  have t0 : 0 ≤ norm a b n x := mul_nonneg (div_nonneg (sub_nonneg.2 h1) hba.le) hn1
  have t1 : norm a b n x ≤ (n : K) - 1 := by
    have : (x - a) / (b - a) ≤ 1 := (div_le_one hba).2 (by linarith)
    calc norm a b n x ≤ 1 * ((n : K) - 1) := mul_le_mul_of_nonneg_right this hn1
      _ = _ := one_mul _
  have hnK : (n : K) ≤ 2 ^ 31 := by exact_mod_cast hn31.le
  have hc := hcast (norm a b n x) (by linarith [show (0 : K) ≤ 2 ^ 31 by positivity]) (by linarith)
  rw [if_pos t0] at hc
  set t := norm a b n x
  set z := cast (val t) with hz
  obtain ⟨c1, c2⟩ := hc
  have hz0 : 0 ≤ z := by
    by_contra h
    have : z + 1 ≤ 0 := by omega
    have : ((z + 1 : Int) : K) ≤ 0 := by exact_mod_cast this
    push_cast at this
    linarith
  rcases le_or_gt z ((n : Int) - 2) with h | h
  · have e : (max (min z ((n : Int) - 2)) 0).toNat = z.toNat := by omega
    have e2 : ((z.toNat : Nat) : K) = (z : K) := by
      have : ((z.toNat : Nat) : Int) = z := Int.toNat_of_nonneg hz0
      exact_mod_cast congrArg (Int.cast (R := K)) this
    rw [e, e2]
    exact ⟨by linarith, by linarith⟩
  · have e : (max (min z ((n : Int) - 2)) 0).toNat = n - 2 := by omega
    have e2 : ((n - 2 : Nat) : K) = (n : K) - 2 := by push_cast [hn]; ring
    have hz2 : ((n : K) - 1) ≤ (z : K) := by
      have : (n : Int) - 1 ≤ z := by omega
      exact_mod_cast this
    rw [e, e2]
    exact ⟨by linarith, by linarith⟩

/-- at a node the cell begins or ends there -/
theorem norm_at_node (cast : FP K → Int) (hcast : CTrunc cast) (a b : K) (n i : Nat) (hab : a ≠ b) (hn : 2 ≤ n)
    (hn31 : n < 2 ^ 31) (hi : i < n) :
    let c := coord cast (val a) (val b) n (val (node a b n i))
    (c.1 = i ∧ c.2 = val 0) ∨ (c.1 + 1 = i ∧ c.2 = val 1) := by
  have hne : b - a ≠ 0 := sub_ne_zero.2 (Ne.symm hab)
  have hn1 : (n : K) - 1 ≠ 0 := by
    have : (2 : K) ≤ n := by exact_mod_cast hn
    intro h
    linarith
  have ht : norm a b n (node a b n i) = (i : K) := by
    unfold norm node
    field_simp
    ring
  have hiK : (i : K) < 2 ^ 31 := by exact_mod_cast (by omega : i < 2 ^ 31)
  have hc := hcast (i : K) (by have := Nat.cast_nonneg (α := K) i; linarith [show (0 : K) ≤ 2 ^ 31 by positivity]) hiK
  rw [if_pos (Nat.cast_nonneg i)] at hc
  have hz : cast (val (i : K)) = (i : Int) := by
    obtain ⟨c1, c2⟩ := hc
    have d1 : cast (val (i : K)) ≤ (i : Int) := by exact_mod_cast c1
    have d2 : (i : Int) < cast (val (i : K)) + 1 := by exact_mod_cast c2
    omega
  simp only
  rw [coord_val cast a b n _ hab, ht, hz]
  rcases Nat.lt_or_ge i (n - 1) with h | h
  · left
    have e : (max (min (i : Int) ((n : Int) - 2)) 0).toNat = i := by omega
    rw [e]
    simp
  · right
    have e : (max (min (i : Int) ((n : Int) - 2)) 0).toNat = n - 2 := by omega
    rw [e]
    refine ⟨by simp only; omega, ?_⟩
    have : i = n - 2 + 1 := by omega
    simp only [this]
    congr 1
    push_cast
    ring

end Num

end Verif.Multilinear

namespace Verif.Multilinear
open Verif Verif.Spec

section Perm
variable {α : Type} [Arith α]

/-- a parallel loop that succeeds computed every iteration -/
theorem prange_of_ok (point : Nat → Except Err α) : ∀ (l : List Nat) (out r : Arr1 α), prange l point out = .ok r →
    ∀ i ∈ l, i < out.len ∧ ∃ v, point i = .ok v := by
  intro l
  induction l with
  | nil => intro out r _ i hi; simp at hi
  | cons k l ih =>
    intro out r h i hi
    rw [prange] at h
    cases hp : point k with
    | error e => rw [hp] at h; exact absurd h (by intro h; cases h)
    | ok v =>
      rw [hp, ok_bind] at h
      unfold Arr1.wr at h
      by_cases hk : k < out.len
      · rw [if_pos hk, ok_bind] at h
        have := ih _ _ h
        rcases List.mem_cons.1 hi with rfl | hi
        · exact ⟨hk, v, hp⟩
        · exact this i hi
      · rw [if_neg hk] at h
        exact absurd h (by intro h; cases h)

/-- the order of the iterations is irrelevant -/
theorem prange_perm_eq (point : Nat → Except Err α) (l l' : List Nat) (hl : l.Perm l') (out r : Arr1 α)
    (h : prange l point out = .ok r) : prange l' point out = .ok r := by
  have hall := prange_of_ok point l out r h
  let g : Nat → α := fun i => match point i with
    | .ok v => v
    | .error _ => out.cell i
  have hg : ∀ i ∈ l, i < out.len ∧ point i = .ok (g i) := by
    intro i hi
    obtain ⟨h1, v, hv⟩ := hall i hi
    refine ⟨h1, ?_⟩
    simp only [g, hv]
  rw [prange_ok g point l out hg] at h
  rw [prange_ok g point l' out (fun i hi => hg i (hl.mem_iff.2 hi)), ← h]
  congr 2
  funext j
  simp only [hl.mem_iff]

end Perm

section Congr
variable {α : Type} [Arith α]

/-- only nodes of the grid are used -/
theorem mlin_congr (cs : List (Nat × α)) (ns : List Nat) (h : List.Forall₂ (fun c n => c.1 + 1 < n) cs ns)
    (V V' : List Nat → α) (hV : ∀ is, List.Forall₂ (fun i n => i < n) is ns → V is = V' is) : mlin cs V = mlin cs V' := by
  induction h generalizing V V' with
  | nil => exact hV [] List.Forall₂.nil
  | @cons c n cs ns hc _ ih =>
    obtain ⟨q, l⟩ := c
    simp only at hc
    simp only [mlin]
    rw [ih _ _ (fun is his => hV (q :: is) (List.Forall₂.cons (by omega) his)),
      ih _ _ (fun is his => hV ((q + 1) :: is) (List.Forall₂.cons hc his))]

theorem coords_lt (cast : α → Int) (smin smax : Arr1 α) (ns : List Nat) (x : Nat → α) (h : ∀ n ∈ ns, 2 ≤ n) :
    List.Forall₂ (fun (c : Nat × α) n => c.1 + 1 < n) (coords cast smin smax ns x) ns := by
  rw [List.forall₂_iff_get]
  refine ⟨by simp [coords], ?_⟩
  intro i h1 h2
  simp only [coords, List.get_eq_getElem, List.getElem_map, List.getElem_range]
  have := h ns[i] (List.getElem_mem h2)
  have e : ns.getD i 0 = ns[i] := by simp [List.getD, List.getElem?_eq_getElem h2]
  rw [e]
  exact coord_lt _ _ _ _ _ this

end Congr

section Unravel

theorem ravel_surj : ∀ (ns : List Nat) (j : Nat), j < ns.prod →
    ∃ is, List.Forall₂ (fun i n => i < n) is ns ∧ ravel ns is = j := by
  intro ns
  induction ns with
  | nil => intro j hj; exact ⟨[], List.Forall₂.nil, by simp at hj; simp [ravel, hj]⟩
  | cons n ns ih =>
    intro j hj
    rw [List.prod_cons] at hj
    have hp : 0 < ns.prod := by
      rcases Nat.eq_zero_or_pos ns.prod with h | h
      · rw [h] at hj; omega
      · exact h
    obtain ⟨is, h1, h2⟩ := ih (j % ns.prod) (Nat.mod_lt _ hp)
    refine ⟨j / ns.prod :: is, List.Forall₂.cons ?_ h1, ?_⟩
    · exact (Nat.div_lt_iff_lt_mul hp).2 hj
    · rw [ravel, h2]
      exact Nat.div_add_mod' j ns.prod

/-- the points of a mesh are enumerated with the last index varying fastest -/
theorem mesh_length {α : Type} : ∀ (axes : List (List α)), (mesh axes).length = (axes.map List.length).prod := by
  intro axes
  induction axes with
  | nil => rfl
  | cons a axes ih => simp [mesh, ih, List.length_flatMap, List.map_const', List.sum_replicate]

theorem flatMap_get {α β : Type} (f : α → List β) (m : Nat) : ∀ (l : List α), (∀ x ∈ l, (f x).length = m) →
    ∀ i j, j < m → (l.flatMap f)[i * m + j]? = (l[i]?).bind (fun x => (f x)[j]?) := by
  intro l
  induction l with
  | nil => intro _ i j _; simp
  | cons x l ih =>
    intro h i j hj
    have hx := h x (by simp)
    rw [List.flatMap_cons]
    cases i with
    | zero =>
      rw [Nat.zero_mul, Nat.zero_add, List.getElem?_append_left (by omega)]
      simp
    | succ i =>
      have e : (i + 1) * m + j = (f x).length + (i * m + j) := by rw [hx]; ring
      rw [e, List.getElem?_append_right (by omega), Nat.add_sub_cancel_left, ih (fun y hy => h y (by simp [hy])) i j hj]
      simp

theorem mesh_get {α β : Type} (f : β → List α) (g : β → Nat → α) : ∀ (bs : List β) (is : List Nat),
    List.Forall₂ (fun i (b : β) => (f b)[i]? = some (g b i)) is bs →
    (mesh (bs.map f))[ravel (bs.map (fun b => (f b).length)) is]? = some (List.zipWith g bs is) := by
  intro bs is h
  induction h with
  | nil => rfl
  | @cons i b is bs hi hall ih =>
    have hlen : (mesh (bs.map f)).length = (bs.map (fun b => (f b).length)).prod := by
      rw [mesh_length, List.map_map]; rfl
    simp only [List.map_cons, mesh, ravel, List.zipWith_cons_cons]
    have hj : ravel (bs.map (fun b => (f b).length)) is < (bs.map (fun b => (f b).length)).prod := by
      rw [← hlen]
      exact (List.getElem?_eq_some_iff.1 ih).1
    rw [flatMap_get _ (bs.map (fun b => (f b).length)).prod _ (by intro x _; rw [List.length_map, hlen]) _ _ hj, hi]
    simp [ih]

end Unravel

section Grid
variable {K : Type} [Field K] [LinearOrder K] [IsStrictOrderedRing K]
open FP

theorem linspace_length (a b : FP K) (n : Nat) : (linspace a b n).length = n := by
  unfold linspace
  split <;> simp

theorem linspace_get (a b : K) (n : Nat) (hn : 2 ≤ n) (i : Nat) (hi : i < n) :
    (linspace (val a) (val b) n)[i]? = some (val (node a b n i)) := by
  have hn1 : (n : K) - 1 ≠ 0 := by
    have : (2 : K) ≤ n := by exact_mod_cast hn
    intro h
    linarith
  unfold linspace
  rw [if_neg (by omega)]
  simp only [List.getElem?_map, List.getElem?_range hi, Option.map_some, Option.some.injEq]
  by_cases h : i + 1 = n
  · rw [if_pos h]
    have hnK : (n : K) = i + 1 := by exact_mod_cast h.symm
    congr 1
    unfold node
    rw [hnK] at hn1 ⊢
    field_simp
    ring
  · rw [if_neg h]
    unfold node
    by_cases hz : b - a = 0
    · simp [hz, hn1]
    · simp [hz, hn1]
      ring

end Grid

end Verif.Multilinear
