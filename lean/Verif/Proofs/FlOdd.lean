import Verif.Proofs.FlErr

/-!
# Symmetric roundings

IEEE round to nearest (ties to even) is symmetric, and so are the usual libraries: `sin (-x) = - sin x`.
-/

namespace Verif.Err
open Verif Fl

/-- rounding and library treat `x` and `-x` alike -/
structure Sym (r : Rounding) : Prop where
  rnd : ∀ x, r.rnd (-x) = -r.rnd x
  sin : ∀ x, r.sin (-x) = -r.sin x
  cos : ∀ x, r.cos (-x) = r.cos x

/-- nearest number, halves away from zero -/
noncomputable def nearestAway (p : Nat) (x : ℝ) : ℝ := if 0 ≤ x then nearest p x else -nearest p (-x)

theorem nearestAway_neg (p : Nat) (x : ℝ) : nearestAway p (-x) = -nearestAway p x := by
  unfold nearestAway
  rcases lt_trichotomy x 0 with h | h | h
  · rw [if_pos (by linarith), if_neg (by linarith), neg_neg]
  · subst h
    have : nearest p 0 = 0 := by simp [nearest]
    simp [this]
  · rw [if_neg (by linarith), if_pos h.le, neg_neg]

theorem nearestAway_rep {p : Nat} (hp : 1 ≤ p) (x : ℝ) : Rep p (nearestAway p x) := by
  unfold nearestAway
  split
  · exact (exists_near hp).1
  · exact Rep.neg (exists_near hp).1

theorem nearestAway_near {p : Nat} (hp : 1 ≤ p) (x f : ℝ) (hf : Rep p f) : |nearestAway p x - x| ≤ |f - x| := by
  unfold nearestAway
  split
  · exact nearest_near p hp x f hf
  · have := nearest_near p hp (-x) (-f) hf.neg
    rw [sub_neg_eq_add, show -f - -x = -(f - x) by ring, abs_neg] at this
    rw [show -nearest p (-x) - x = -(nearest p (-x) + x) by ring, abs_neg]
    exact this

/-- a symmetric rounding with correctly rounded functions -/
noncomputable def symRounding (p : Nat) (hp : 2 ≤ p) : Rounding where
  p := p
  hp := hp
  rnd := nearestAway p
  rep := nearestAway_rep (by omega)
  near := nearestAway_near (by omega)
  sin x := nearestAway p (Real.sin x)
  cos x := nearestAway p (Real.cos x)
  asin x := nearestAway p (Real.arcsin x)
  acos x := nearestAway p (Real.arccos x)
  sin_rep _ := nearestAway_rep (by omega) _
  cos_rep _ := nearestAway_rep (by omega) _
  asin_rep _ := nearestAway_rep (by omega) _
  acos_rep _ := nearestAway_rep (by omega) _

theorem sym_symRounding (p : Nat) (hp : 2 ≤ p) : Sym (symRounding p hp) where
  rnd := nearestAway_neg p
  sin x := by show nearestAway p _ = -nearestAway p _; rw [Real.sin_neg, nearestAway_neg]
  cos x := by show nearestAway p _ = nearestAway p _; rw [Real.cos_neg]

theorem libRel_symRounding (p : Nat) (hp : 2 ≤ p) : LibRel (symRounding p hp) (symRounding p hp).u := by
  have key : ∀ x, Rel (symRounding p hp).u ((symRounding p hp).rnd x) x := rel_rnd le_rfl
  exact ⟨le_rfl, fun x => key _, fun x => key _, fun x _ => key _, fun x _ => key _⟩

/-- the cosine of a floating point number is not 0 -/
theorem cos_rep_ne_zero {p : Nat} {x : ℝ} (h : Rep p x) : Real.cos x ≠ 0 := by
  intro h0
  obtain ⟨k, hk⟩ := Real.cos_eq_zero_iff.1 h0
  obtain ⟨m, e, -, hm⟩ := h
  have hk0 : (2 * (k : ℝ) + 1) ≠ 0 := by
    have : (2 * k + 1 : ℤ) ≠ 0 := by omega
    exact_mod_cast this
  refine irrational_pi ⟨(m : ℚ) * (2 : ℚ) ^ e * 2 / (2 * k + 1), ?_⟩
  push_cast
  rw [div_eq_iff hk0, ← hm, hk]
  ring

end Verif.Err
