import Verif.Proofs.ModisAny
import Verif.Props.Modis

/-!
# C35: the satellite-angle MODIS interpolator called with any resolutions, widths and shapes
-/

namespace Verif.Spec.Modis

/-- What a call of the compiled function `interpolate` needs to stay inside its arrays. -/
def AngleInBounds (coarse fine width lonR lonC latR latC satR satC : Nat) : Prop :=
  fine ≠ 0 ∧
  ((coarse = 1000 ∧ (satR < 10 ∨ fine ≤ 1000) ∧ Fits 10 1354 lonR lonC latR latC satR satC) ∨
   (coarse = 5000 ∧ fine ≤ 1000 ∧ Fits 2 (if width = 0 then 271 else width) lonR lonC latR latC satR satC))

end Verif.Spec.Modis

namespace Verif.Props
open Verif Verif.Modis Verif.Spec.Modis
variable {α : Type} [Trig α]

/-- **C35 (refused)**: the calls that raise an exception: 5 km input declared with a width other than 0, 270, 271. -/
theorem C35_refused (coarse fine width : Nat) (lon lat satz : Arr2 α) (junk : Nat → Nat → Nat → Nat → α)
    (h : coarse = 5000 ∧ width ≠ 0 ∧ width ≠ 270 ∧ width ≠ 271) :
    interpolate coarse fine width lon lat satz junk = .error .notImplemented := by
  simp [interpolate, h]

/-- **C35 (exactly)**: every other call, for all resolutions, widths, shapes of the three arrays (each its own) and contents: it stays
inside its arrays and returns arrays of the expected shape if `AngleInBounds`, and otherwise accesses memory out of bounds or divides
by zero. -/
theorem C35_exact (coarse fine width : Nat) (lon lat satz : Arr2 α) (junk : Nat → Nat → Nat → Nat → α)
    (h : ¬ (coarse = 5000 ∧ width ≠ 0 ∧ width ≠ 270 ∧ width ≠ 271)) :
    (AngleInBounds coarse fine width lon.rows lon.cols lat.rows lat.cols satz.rows satz.cols →
      ∃ out, interpolate coarse fine width lon lat satz junk = .ok out ∧
        out.1.rows = satz.rows * (1000 / fine * (coarse / 1000)) ∧ out.1.cols = 1354 * (1000 / fine) ∧
        out.2.rows = satz.rows * (1000 / fine * (coarse / 1000)) ∧ out.2.cols = 1354 * (1000 / fine)) ∧
    (¬ AngleInBounds coarse fine width lon.rows lon.cols lat.rows lat.cols satz.rows satz.cols →
      interpolate coarse fine width lon lat satz junk = .error .ub) := by
  have hn : ¬ (coarse = 5000 ∧ ¬ (width = 0 ∨ width = 270 ∨ width = 271)) := by omega
  unfold AngleInBounds
  by_cases h0 : fine = 0
  · refine ⟨fun hb => absurd h0 hb.1, fun _ => ?_⟩
    simp only [interpolate, if_neg hn, mkCfg, if_pos h0, bind, Except.bind]
  have hf0 : 1000 < fine → 1000 / fine = 0 := fun hf => Nat.div_eq_of_lt hf
  have hf1 : fine ≤ 1000 → 1 ≤ 1000 / fine := fun hf => (Nat.one_le_div_iff (by omega)).2 hf
  obtain ⟨k, hk⟩ : ∃ k, k = 1000 / fine := ⟨_, rfl⟩
  rw [← hk] at hf0 hf1 ⊢
  by_cases h1 : coarse = 1000
  · subst h1
    have e : interpolate 1000 fine width lon lat satz junk = interpolateCfg
        { len := 10, width := 1354, perKm := 1, f := k, fineWidth := 1354 * k, factor5 := k * 2 } lon lat satz junk := by
      simp only [interpolate, if_neg hn, mkCfg, if_neg h0, bind, Except.bind, ← hk]
      simp
    rw [e]
    by_cases hf : fine ≤ 1000
    · have := interpolateCfg_dich (Geometry.km1 k (hf1 hf)) lon lat satz junk
      simp only [h0, hf, ne_eq, not_false_eq_true, or_true, true_and, false_and, or_false, show ¬ (1000 = 5000) by omega,
        Nat.div_self (show 0 < 1000 by omega), Nat.mul_one]
      exact this
    · have := interpolateCfg_nofine (cfg := { len := 10, width := 1354, perKm := 1, f := k, fineWidth := 1354 * k, factor5 := k * 2 })
        rfl (hf0 (by omega)) (by simp only [hf0 (by omega)]) lon lat satz junk
      have hz : k = 0 := hf0 (by omega)
      simp only [h0, hf, ne_eq, not_false_eq_true, or_false, true_and, false_and, show ¬ (1000 = 5000) by omega, hz,
        Nat.zero_mul, Nat.mul_zero]
      rw [hz] at this
      refine ⟨fun hb => this.1 hb.1, fun hb => this.2 (fun hs => hb ⟨hs, Or.inl hs⟩)⟩
  by_cases h5 : coarse = 5000
  · subst h5
    have hw : width = 0 ∨ width = 270 ∨ width = 271 := by omega
    obtain ⟨w, hwd⟩ : ∃ w, w = if width = 0 then 271 else width := ⟨_, rfl⟩
    have hw' : w = 270 ∨ w = 271 := by
      rw [hwd]; split <;> omega
    have e : interpolate 5000 fine width lon lat satz junk = interpolateCfg
        { len := 2, width := w, perKm := 5, f := k * 5, fineWidth := 1354 * k, factor5 := k * 2 } lon lat satz junk := by
      simp only [interpolate, mkCfg, if_neg h0, bind, Except.bind, ← hk, ← hwd]
      simp
      omega
    rw [e, ← hwd]
    by_cases hf : fine ≤ 1000
    · have := interpolateCfg_dich (Geometry.km5 k w (hf1 hf) hw') lon lat satz junk
      simp only [h0, hf, ne_eq, not_false_eq_true, true_and, false_and, false_or, show ¬ (5000 = 1000) by omega,
        show 5000 / 1000 = 5 by omega]
      exact this
    · refine ⟨fun hb => absurd hb.2 (by omega), fun _ => ?_⟩
      unfold interpolateCfg
      rw [if_pos (Or.inr ⟨by simp only; omega, by simp only [hf0 (by omega)]; omega⟩)]
  · refine ⟨fun hb => absurd hb.2 (by omega), fun _ => ?_⟩
    simp only [interpolate, if_neg hn, mkCfg, if_neg h0, if_neg h1, if_neg h5, bind, Except.bind]
    by_cases hp : coarse / 1000 = 0
    · simp only [if_pos hp]
    · simp only [if_neg hp, interpolateCfg]
      rw [if_pos (Or.inl trivial)]

/-- three scans of 1 km zenith angles with 20 columns, and longitudes and latitudes with 1000 columns and fewer rows: stays inside the
arrays (what is not defined comes from memory) -/
example (f g h : Nat → Nat → α) (junk) :=
  (C35_exact 1000 500 0 ⟨15, 1000, f⟩ ⟨16, 1001, g⟩ ⟨35, 20, h⟩ junk (by omega)).1 (by simp [AngleInBounds, Fits])

/-- one row of latitudes missing -/
example (f g h : Nat → Nat → α) (junk) :=
  (C35_exact 1000 500 0 ⟨20, 1354, f⟩ ⟨19, 1354, g⟩ ⟨20, 1354, h⟩ junk (by omega)).2 (by simp [AngleInBounds, Fits])

example (f : Nat → Nat → α) (junk) : interpolate 5000 500 135 (⟨2, 135, f⟩ : Arr2 α) ⟨2, 135, f⟩ ⟨2, 135, f⟩ junk = .error .notImplemented :=
  C35_refused 5000 500 135 _ _ _ junk (by omega)

/-- **C35 (public functions)**: the five public conversions on numpy arrays of any shapes. -/
theorem C35_public (c : Conv) (lon lat satz : Arr2 α) (junk : Nat → Nat → Nat → Nat → α)
    (h : (c = .km1to500 ∨ c = .km1to250) ∨ lon.cols = 0 ∨ lon.cols = 270 ∨ lon.cols = 271) :
    (Fits c.scanRows (if c = .km1to500 ∨ c = .km1to250 then 1354 else if lon.cols = 0 then 271 else lon.cols) lon.rows lon.cols
        lat.rows lat.cols satz.rows satz.cols → ∃ out, c.run lon lat satz junk = .ok out) ∧
    (¬ Fits c.scanRows (if c = .km1to500 ∨ c = .km1to250 then 1354 else if lon.cols = 0 then 271 else lon.cols) lon.rows lon.cols
        lat.rows lat.cols satz.rows satz.cols → c.run lon lat satz junk = .error .ub) := by
  have hx : ∀ (coarse fine width : Nat), ¬ (coarse = 5000 ∧ width ≠ 0 ∧ width ≠ 270 ∧ width ≠ 271) → ∀ P : Prop,
      (P ↔ AngleInBounds coarse fine width lon.rows lon.cols lat.rows lat.cols satz.rows satz.cols) →
      (P → ∃ out, interpolate coarse fine width lon lat satz junk = .ok out) ∧
      (¬ P → interpolate coarse fine width lon lat satz junk = .error .ub) := by
    intro coarse fine width hw P hP
    have := C35_exact coarse fine width lon lat satz junk hw
    rw [← hP] at this
    exact ⟨fun p => let ⟨out, e, _⟩ := this.1 p; ⟨out, e⟩, this.2⟩
  cases c
  case km1to500 => exact hx 1000 500 0 (by omega) _ (by simp [AngleInBounds, Conv.scanRows])
  case km1to250 => exact hx 1000 250 0 (by omega) _ (by simp [AngleInBounds, Conv.scanRows])
  all_goals
    have h' : lon.cols = 0 ∨ lon.cols = 270 ∨ lon.cols = 271 := by simpa using h
  case km5to1 => exact hx 5000 1000 lon.cols (by omega) _ (by simp [AngleInBounds, Conv.scanRows])
  case km5to500 => exact hx 5000 500 lon.cols (by omega) _ (by simp [AngleInBounds, Conv.scanRows])
  case km5to250 => exact hx 5000 250 lon.cols (by omega) _ (by simp [AngleInBounds, Conv.scanRows])

/-- 5 km: zenith angles with one column more than the longitudes -/
example (f g h : Nat → Nat → α) (junk) :=
  (C35_public .km5to250 ⟨2, 270, f⟩ ⟨2, 270, g⟩ ⟨2, 271, h⟩ junk (by simp)).2 (by simp [Fits, Conv.scanRows])

end Verif.Props
