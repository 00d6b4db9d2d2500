import Verif.Model.GridInterp
import Verif.Spec.Grid
import Mathlib.Data.List.Forall2
import Mathlib.Data.List.Nodup
import Mathlib.Data.List.Basic

/-!
# Chunk enumeration and block assembly
-/

namespace Verif.Grid
open Verif Verif.Interpolator

theorem mem_ndindex : ∀ (ns p : List Nat), p ∈ ndindex ns ↔ List.Forall₂ (· < ·) p ns
  | [], p => by simp [ndindex]
  | n :: ns, p => by
    simp only [ndindex, List.mem_flatMap, List.mem_range, List.mem_map]
    constructor
    · rintro ⟨i, hi, q, hq, rfl⟩
      exact List.Forall₂.cons hi ((mem_ndindex ns q).1 hq)
    · intro h
      cases h with
      | cons h1 h2 => exact ⟨_, h1, _, (mem_ndindex ns _).2 h2, rfl⟩

theorem ndindex_nodup : ∀ ns : List Nat, (ndindex ns).Nodup
  | [] => by simp [ndindex]
  | n :: ns => by
    rw [ndindex, List.nodup_flatMap]
    refine ⟨fun i _ => (ndindex_nodup ns).map (fun a b h => by simpa using h), ?_⟩
    refine List.Pairwise.imp ?_ (List.nodup_range (n := n))
    intro a b hab
    rw [Function.onFun, List.disjoint_left]
    intro x hx hy
    simp only [List.mem_map] at hx hy
    obtain ⟨q, _, rfl⟩ := hx
    obtain ⟨r, _, h⟩ := hy
    exact hab (by simpa using (List.cons.inj h).1.symm)

/-- the offset of a chunk plus its size stays inside the sum -/
theorem offset_le (c : List Nat) (i : Nat) : (c.take i).sum + c.getD i 0 ≤ c.sum := by
  induction c generalizing i with
  | nil => simp
  | cons a c ih =>
    cases i with
    | zero => simp
    | succ i => have := ih i; simp only [List.take_succ_cons, List.sum_cons, List.getD_cons_succ]; omega

/-- an element of one dimension is in exactly one chunk -/
theorem unique_chunk (c : List Nat) (e : Nat) (h : e < c.sum) :
    ∃ i, i < c.length ∧ ((c.take i).sum ≤ e ∧ e < (c.take i).sum + c.getD i 0) ∧
      ∀ j, (c.take j).sum ≤ e ∧ e < (c.take j).sum + c.getD j 0 → j = i := by
  induction c generalizing e with
  | nil => simp at h
  | cons a c ih =>
    by_cases hea : e < a
    · refine ⟨0, by simp, by simp [hea], ?_⟩
      intro j hj
      cases j with
      | zero => rfl
      | succ j => simp only [List.take_succ_cons, List.sum_cons] at hj; omega
    · have h' : e - a < c.sum := by rw [List.sum_cons] at h; omega
      obtain ⟨i, hi, hin, hu⟩ := ih (e - a) h'
      refine ⟨i + 1, by simpa using hi, ?_, ?_⟩
      · simp only [List.take_succ_cons, List.sum_cons, List.getD_cons_succ]; omega
      · intro j hj
        cases j with
        | zero => simp at hj; omega
        | succ j =>
          simp only [List.take_succ_cons, List.sum_cons, List.getD_cons_succ] at hj
          rw [hu j (by omega)]

theorem length_slicesAt {p : List Nat} {chunks : List (List Nat)} (h : List.Forall₂ (· < ·) p (chunks.map List.length)) :
    (slicesAt p chunks).length = chunks.length := by
  have := h.length_eq
  simp only [slicesAt, List.length_zipWith, List.length_map] at *
  omega

/-- an element is in the slices of exactly one position -/
theorem unique_position : ∀ (chunks : List (List Nat)) (e : List Nat),
    List.Forall₂ (fun i (c : List Nat) => i < c.sum) e chunks →
    ∃ p, p ∈ ndindex (chunks.map List.length) ∧ Spec.inSlices e (slicesAt p chunks) ∧
      ∀ q, q ∈ ndindex (chunks.map List.length) → Spec.inSlices e (slicesAt q chunks) → q = p
  | [], e, h => by
    cases h
    refine ⟨[], by simp [ndindex], List.Forall₂.nil, ?_⟩
    intro q hq _
    simpa [ndindex] using hq
  | c :: cs, _, h => by
    cases h with
    | @cons i _ e _ h1 h2 =>
    obtain ⟨p, hp, hin, hu⟩ := unique_position cs e h2
    obtain ⟨k, hk, hkin, hku⟩ := unique_chunk c i h1
    refine ⟨k :: p, ?_, ?_, ?_⟩
    · rw [mem_ndindex] at hp ⊢
      exact List.Forall₂.cons hk hp
    · exact List.Forall₂.cons hkin hin
    · intro q hq hqin
      rw [mem_ndindex, List.map_cons] at hq
      cases hq with
      | @cons a _ q' _ ha hq' =>
        cases hqin with
        | cons g1 g2 => rw [hku a g1, hu q' ((mem_ndindex _ _).2 hq') g2]

end Verif.Grid
