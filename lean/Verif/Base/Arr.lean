import Mathlib.Data.Nat.Init
import Mathlib.Tactic.Ring
import Mathlib.Order.Basic

/-!
# Errors, loops and typed memory (Cython level)

`Arr2`/`Arr3` model the typed memory views of the compiled modules.  They are compiled with
`boundscheck=False, wraparound=False`, so an access outside the array is undefined behaviour; it is the error
`Err.ub` here.  The value of `cell` outside the shape is meaningless.
-/

namespace Verif

/-- Python exceptions raised by the modelled code, and undefined behaviour of compiled code. -/
inductive Err where
  | valueError | indexError | nameError | keyError | typeError | zeroDivision | notImplemented
  | attributeError | exception
  | ub
deriving DecidableEq, Repr, Inhabited

/-- `for i in range(n): s = body(i, s)` -/
def loop {σ : Type} (n : Nat) (body : Nat → σ → Except Err σ) (s : σ) : Except Err σ :=
  match n with
  | 0 => .ok s
  | n + 1 => do
    let s ← loop n body s
    body n s

/-- Invariant rule for loops. -/
theorem loop_ok {σ : Type} {n : Nat} {body : Nat → σ → Except Err σ} {s : σ} (P : Nat → σ → Prop)
    (h0 : P 0 s) (hs : ∀ i s, i < n → P i s → ∃ s', body i s = .ok s' ∧ P (i + 1) s') :
    ∃ s', loop n body s = .ok s' ∧ P n s' := by
  induction n with
  | zero => exact ⟨s, rfl, h0⟩
  | succ n ih =>
    obtain ⟨s1, e1, p1⟩ := ih (fun i s hi => hs i s (Nat.lt_succ_of_lt hi))
    obtain ⟨s2, e2, p2⟩ := hs n s1 (Nat.lt_succ_self n) p1
    exact ⟨s2, by simp only [loop, e1, bind, Except.bind, e2], p2⟩

/-- A loop whose iteration `k` fails whatever happened before raises, provided the previous iterations do not
raise anything else. -/
theorem loop_error {σ : Type} {n : Nat} {body : Nat → σ → Except Err σ} {s : σ} {e : Err} (P : Nat → σ → Prop)
    (k : Nat) (hk : k < n) (h0 : P 0 s)
    (hs : ∀ i s, i < k → P i s → ∃ s', body i s = .ok s' ∧ P (i + 1) s')
    (hf : ∀ s, P k s → body k s = .error e) : loop n body s = .error e := by
  induction n with
  | zero => omega
  | succ n ih =>
    rcases Nat.lt_succ_iff_lt_or_eq.mp hk with h | h
    · simp only [loop, ih h, bind, Except.bind]
    · subst h
      obtain ⟨s1, e1, p1⟩ := loop_ok (n := k) P h0 hs
      simp only [loop, e1, bind, Except.bind, hf s1 p1]

/-- Two-dimensional typed memory view. -/
structure Arr2 (α : Type) where
  rows : Nat
  cols : Nat
  cell : Nat → Nat → α

/-- Three-dimensional typed memory view. -/
structure Arr3 (α : Type) where
  rows : Nat
  cols : Nat
  depth : Nat
  cell : Nat → Nat → Nat → α

/-- One-dimensional typed memory view. -/
structure Arr1 (α : Type) where
  len : Nat
  cell : Nat → α

variable {α : Type}

namespace Arr1
/-- `a[i]` -/
def rd (a : Arr1 α) (i : Nat) : Except Err α := if i < a.len then .ok (a.cell i) else .error .ub
/-- `a[i] = v` -/
def wr (a : Arr1 α) (i : Nat) (v : α) : Except Err (Arr1 α) :=
  if i < a.len then .ok { a with cell := fun i' => if i' = i then v else a.cell i' } else .error .ub

theorem rd_ok {a : Arr1 α} {i : Nat} (h : i < a.len) : a.rd i = .ok (a.cell i) := if_pos h
end Arr1

namespace Arr2
/-- `a[i, j]` -/
def rd (a : Arr2 α) (i j : Nat) : Except Err α :=
  if i < a.rows ∧ j < a.cols then .ok (a.cell i j) else .error .ub

/-- `a[i, j] = v` -/
def wr (a : Arr2 α) (i j : Nat) (v : α) : Except Err (Arr2 α) :=
  if i < a.rows ∧ j < a.cols then
    .ok { a with cell := fun i' j' => if i' = i ∧ j' = j then v else a.cell i' j' }
  else .error .ub

/-- the view `a[:r, :c]` (bounds clipped), for reading -/
def topLeft (a : Arr2 α) (r c : Nat) : Arr2 α := ⟨min r a.rows, min c a.cols, a.cell⟩

/-- the view `a[r:, c:]`, for reading -/
def from_ (a : Arr2 α) (r c : Nat) : Arr2 α :=
  ⟨a.rows - r, a.cols - c, fun i j => a.cell (i + r) (j + c)⟩

/-- the view `a[r0:r1]` (bounds clipped), for reading -/
def rowSlice (a : Arr2 α) (r0 r1 : Nat) : Arr2 α :=
  ⟨min r1 a.rows - min r0 a.rows, a.cols, fun i j => a.cell (r0 + i) j⟩

/-- `v = a[:r, :c]; v[i, j] = x` -/
def wrTopLeft (a : Arr2 α) (r c i j : Nat) (x : α) : Except Err (Arr2 α) :=
  if i < min r a.rows ∧ j < min c a.cols then a.wr i j x else .error .ub

/-- `v = a[r0:r1]; v[i, j] = x` -/
def wrRowSlice (a : Arr2 α) (r0 r1 i j : Nat) (x : α) : Except Err (Arr2 α) :=
  if i < min r1 a.rows - min r0 a.rows ∧ j < a.cols then a.wr (r0 + i) j x else .error .ub

theorem rd_ok {a : Arr2 α} {i j : Nat} (hi : i < a.rows) (hj : j < a.cols) :
    a.rd i j = .ok (a.cell i j) := if_pos ⟨hi, hj⟩

theorem rd_ub {a : Arr2 α} {i j : Nat} (h : ¬ (i < a.rows ∧ j < a.cols)) : a.rd i j = .error .ub :=
  if_neg h

theorem wr_ub {a : Arr2 α} {i j : Nat} {v : α} (h : ¬ (i < a.rows ∧ j < a.cols)) :
    a.wr i j v = .error .ub := if_neg h

/-- The array has shape `r × c` and holds `F` on the region `S`. -/
structure Holds (a : Arr2 α) (r c : Nat) (F : Nat → Nat → α) (S : Nat → Nat → Prop) : Prop where
  rows : a.rows = r
  cols : a.cols = c
  cell : ∀ i j, i < r → j < c → S i j → a.cell i j = F i j

theorem Holds.mono {a : Arr2 α} {r c F} {S T : Nat → Nat → Prop} (h : a.Holds r c F S)
    (hst : ∀ i j, i < r → j < c → T i j → S i j) : a.Holds r c F T :=
  ⟨h.rows, h.cols, fun i j hi hj ht => h.cell i j hi hj (hst i j hi hj ht)⟩

theorem Holds.rd {a : Arr2 α} {r c F} {S : Nat → Nat → Prop} (h : a.Holds r c F S) {i j : Nat}
    (hi : i < r) (hj : j < c) (hS : S i j) : a.rd i j = .ok (F i j) := by
  rw [rd_ok (by rw [h.rows]; exact hi) (by rw [h.cols]; exact hj), h.cell i j hi hj hS]

/-- A write of the right value extends the region. -/
theorem Holds.wr {a : Arr2 α} {r c F} {S : Nat → Nat → Prop} (h : a.Holds r c F S) {i j : Nat} {v : α}
    (hi : i < r) (hj : j < c) (hv : v = F i j) :
    ∃ a', a.wr i j v = .ok a' ∧ a'.Holds r c F (fun i' j' => S i' j' ∨ (i' = i ∧ j' = j)) := by
  refine ⟨_, if_pos ⟨by rw [h.rows]; exact hi, by rw [h.cols]; exact hj⟩, h.rows, h.cols, ?_⟩
  intro i' j' hi' hj' hS
  by_cases e : i' = i ∧ j' = j
  · simp only [e, and_self, if_true]; exact hv
  · simp only [if_neg e]
    rcases hS with hS | hS
    · exact h.cell i' j' hi' hj' hS
    · exact absurd hS e

end Arr2

namespace Arr3
/-- `a[i, j, k]` -/
def rd (a : Arr3 α) (i j k : Nat) : Except Err α :=
  if i < a.rows ∧ j < a.cols ∧ k < a.depth then .ok (a.cell i j k) else .error .ub

/-- `a[i, j, k] = v` -/
def wr (a : Arr3 α) (i j k : Nat) (v : α) : Except Err (Arr3 α) :=
  if i < a.rows ∧ j < a.cols ∧ k < a.depth then
    .ok { a with cell := fun i' j' k' => if i' = i ∧ j' = j ∧ k' = k then v else a.cell i' j' k' }
  else .error .ub

/-- the view `a[:, :, k]`, for reading (`k` in range) -/
def plane (a : Arr3 α) (k : Nat) : Arr2 α := ⟨a.rows, a.cols, fun i j => a.cell i j k⟩

/-- `v = a[:, :, k]` modified to `p` (writing back a plane view) -/
def setPlane (a : Arr3 α) (k : Nat) (p : Arr2 α) : Arr3 α :=
  { a with cell := fun i j k' => if k' = k then p.cell i j else a.cell i j k' }

structure Holds (a : Arr3 α) (r c d : Nat) (F : Nat → Nat → Nat → α) (S : Nat → Nat → Nat → Prop) : Prop where
  rows : a.rows = r
  cols : a.cols = c
  depth : a.depth = d
  cell : ∀ i j k, i < r → j < c → k < d → S i j k → a.cell i j k = F i j k

theorem Holds.mono {a : Arr3 α} {r c d F} {S T : Nat → Nat → Nat → Prop} (h : a.Holds r c d F S)
    (hst : ∀ i j k, i < r → j < c → k < d → T i j k → S i j k) : a.Holds r c d F T :=
  ⟨h.rows, h.cols, h.depth, fun i j k hi hj hk ht => h.cell i j k hi hj hk (hst i j k hi hj hk ht)⟩

theorem Holds.rd {a : Arr3 α} {r c d F} {S : Nat → Nat → Nat → Prop} (h : a.Holds r c d F S) {i j k : Nat}
    (hi : i < r) (hj : j < c) (hk : k < d) (hS : S i j k) : a.rd i j k = .ok (F i j k) := by
  rw [Arr3.rd, if_pos ⟨by rw [h.rows]; exact hi, by rw [h.cols]; exact hj, by rw [h.depth]; exact hk⟩,
    h.cell i j k hi hj hk hS]

theorem Holds.wr {a : Arr3 α} {r c d F} {S : Nat → Nat → Nat → Prop} (h : a.Holds r c d F S)
    {i j k : Nat} {v : α} (hi : i < r) (hj : j < c) (hk : k < d) (hv : v = F i j k) :
    ∃ a', a.wr i j k v = .ok a' ∧
      a'.Holds r c d F (fun i' j' k' => S i' j' k' ∨ (i' = i ∧ j' = j ∧ k' = k)) := by
  refine ⟨_, if_pos ⟨by rw [h.rows]; exact hi, by rw [h.cols]; exact hj, by rw [h.depth]; exact hk⟩,
    h.rows, h.cols, h.depth, ?_⟩
  intro i' j' k' hi' hj' hk' hS
  by_cases e : i' = i ∧ j' = j ∧ k' = k
  · simp only [e, and_self, if_true]; exact hv
  · simp only [if_neg e]
    rcases hS with hS | hS
    · exact h.cell i' j' k' hi' hj' hk' hS
    · exact absurd hS e

end Arr3

/-! ### nested loops filling a rectangle -/

/-- `for i in range(n): for j in range(m): body` -/
def loop2 {σ : Type} (n m : Nat) (body : Nat → Nat → σ → Except Err σ) (s : σ) : Except Err σ :=
  loop n (fun i s => loop m (fun j s => body i j s) s) s

/-- Invariant rule for nested loops; the region done so far is `i' < i ∨ (i' = i ∧ j' < j)`. -/
theorem loop2_ok {σ : Type} {n m : Nat} {body : Nat → Nat → σ → Except Err σ} {s : σ}
    (P : (Nat → Nat → Prop) → σ → Prop)
    (h0 : P (fun _ _ => False) s)
    (hmono : ∀ S T s, (∀ i j, T i j → S i j) → P S s → P T s)
    (hs : ∀ i j S s, i < n → j < m → P S s →
      ∃ s', body i j s = .ok s' ∧ P (fun i' j' => S i' j' ∨ (i' = i ∧ j' = j)) s') :
    ∃ s', loop2 n m body s = .ok s' ∧ P (fun i j => i < n ∧ j < m) s' := by
  refine loop_ok (P := fun k s => P (fun i j => i < k ∧ j < m) s) ?_ ?_
  · exact hmono _ _ _ (fun i j h => by omega) h0
  · intro i s hi hp
    obtain ⟨s', e, p⟩ := loop_ok (n := m) (body := fun j s => body i j s) (s := s)
      (P := fun k s => P (fun i' j' => (i' < i ∧ j' < m) ∨ (i' = i ∧ j' < k)) s)
      (hmono _ _ _ (fun i' j' h => by omega) hp)
      (fun j s hj hp => by
        obtain ⟨s', e, p⟩ := hs i j _ s hi hj hp
        exact ⟨s', e, hmono _ _ _ (fun i' j' h => by omega) p⟩)
    exact ⟨s', e, hmono _ _ _ (fun i' j' h => by omega) p⟩

end Verif
