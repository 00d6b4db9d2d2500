import Verif.Proofs.ModisSimpleAny
import Verif.Base.RealTrig

/-!
# C48, C92: the simple MODIS interpolator called with any resolutions
-/

namespace Verif.Spec.ModisSimple

/-- What a call of `interpolate_geolocation_cartesian` needs to stay inside its arrays: a fine resolution that is not zero, and,
unless there is no whole scan, latitudes for all the longitudes of the whole scans and, unless the fine resolution is above the coarse
one (no fine pixels), 20 fine rows per scan and 3 fine columns, or 40 and 5 for factor 4. -/
def InBounds (rps coarse fine rows cols latRows latCols : Nat) : Prop :=
  fine ≠ 0 ∧ (rows < rps ∨
    ((cols = 0 ∨ (cols ≤ latCols ∧ rows / rps * rps ≤ latRows)) ∧
      (coarse < fine ∨
        if coarse / fine = 4 then 40 ≤ 4 * rps ∧ 5 ≤ 4 * cols else 20 ≤ coarse / fine * rps ∧ 3 ≤ coarse / fine * cols)))

end Verif.Spec.ModisSimple

namespace Verif.Props
open Verif Verif.Modis Verif.ModisSimple Verif.Spec.ModisSimple

section bounds
variable {α : Type} [Trig α]

/-- **C48 (exactly)**: for every coarse resolution the code knows, every fine resolution, and longitudes and latitudes of any
shapes (also different ones), the compiled function stays inside its arrays and returns arrays of the expected shape if `InBounds`, and
otherwise accesses memory out of bounds (or divides by zero), whatever the content. -/
theorem C48_exact (mc : MapCoord α) (coarse fine rps : Nat) (hrps : rowsPerScan coarse = .ok rps) (lon lat : Arr2 α)
    (junk : Nat → Nat → Nat → Nat → α) :
    (InBounds rps coarse fine lon.rows lon.cols lat.rows lat.cols →
      ∃ out, interpolate mc coarse fine lon lat junk = .ok out ∧
        out.1.rows = coarse / fine * lon.rows ∧ out.1.cols = coarse / fine * lon.cols ∧
        out.2.rows = coarse / fine * lon.rows ∧ out.2.cols = coarse / fine * lon.cols) ∧
    (¬ InBounds rps coarse fine lon.rows lon.cols lat.rows lat.cols → interpolate mc coarse fine lon lat junk = .error .ub) := by
  have known : (coarse = 5000 ∧ rps = 2) ∨ (coarse = 1000 ∧ rps = 10) ∨ (coarse = 500 ∧ rps = 20) ∨ (coarse = 250 ∧ rps = 40) := by
    unfold rowsPerScan at hrps
    split at hrps
    · injection hrps with h; omega
    split at hrps
    · injection hrps with h; omega
    split at hrps
    · injection hrps with h; omega
    split at hrps
    · injection hrps with h; omega
    · cases hrps
  have hpos : 0 < rps := by omega
  by_cases h0 : fine = 0
  · refine ⟨fun h => absurd h0 h.1, fun _ => ?_⟩
    simp only [ModisSimple.interpolate, hrps, bind, Except.bind, if_pos h0]
  have e : interpolate mc coarse fine lon lat junk = interpolateRF mc rps (coarse / fine) lon lat junk := by
    simp only [ModisSimple.interpolate, hrps, bind, Except.bind, if_neg h0]
  have hf0 : coarse / fine = 0 ↔ coarse < fine := by
    rw [Nat.div_eq_zero_iff]; omega
  have hen : Enough (coarse / fine) (coarse / fine * rps) (coarse / fine * lon.cols) ↔
      if coarse / fine = 4 then 40 ≤ 4 * rps ∧ 5 ≤ 4 * lon.cols
      else 20 ≤ coarse / fine * rps ∧ 3 ≤ coarse / fine * lon.cols := by
    unfold Enough
    split
    · next h => rw [h]
    · exact Iff.rfl
  have hiff : InBounds rps coarse fine lon.rows lon.cols lat.rows lat.cols ↔
      (lon.rows < rps ∨ ((lon.cols = 0 ∨ (lon.cols ≤ lat.cols ∧ lon.rows / rps * rps ≤ lat.rows)) ∧
        (coarse / fine = 0 ∨ Enough (coarse / fine) (coarse / fine * rps) (coarse / fine * lon.cols)))) := by
    rw [hen, hf0]
    exact ⟨fun h => h.2, fun h => ⟨h0, h⟩⟩
  rw [hiff, e]
  refine interpolateRF_dich hpos lon lat ?_ junk
  generalize coarse / fine = f
  split
  · next h4 =>
    subst h4
    rcases known with ⟨_, rfl⟩ | ⟨_, rfl⟩ | ⟨_, rfl⟩ | ⟨_, rfl⟩ <;> omega
  · rcases known with ⟨_, rfl⟩ | ⟨_, rfl⟩ | ⟨_, rfl⟩ | ⟨_, rfl⟩ <;> omega

/-- other coarse resolutions are a KeyError -/
theorem C48_unknown (mc : MapCoord α) (coarse fine : Nat) (h : coarse ≠ 5000 ∧ coarse ≠ 1000 ∧ coarse ≠ 500 ∧ coarse ≠ 250)
    (lon lat : Arr2 α) (junk : Nat → Nat → Nat → Nat → α) : interpolate mc coarse fine lon lat junk = .error .keyError := by
  simp only [ModisSimple.interpolate, rowsPerScan, if_neg h.1, if_neg h.2.1, if_neg h.2.2.1, if_neg h.2.2.2, bind, Except.bind]

/-- from 5 km to 500 m: one scan of 2 rows, 270 columns, and a row of longitudes left over -/
example (mc : MapCoord α) (f g : Nat → Nat → α) (junk) :=
  (C48_exact mc 5000 500 2 rfl ⟨3, 270, f⟩ ⟨2, 270, g⟩ junk).1 (by simp [InBounds])

/-- from 5 km to 1250 m: too few rows -/
example (mc : MapCoord α) (f g : Nat → Nat → α) (junk) :=
  (C48_exact mc 5000 1250 2 rfl ⟨2, 270, f⟩ ⟨2, 270, g⟩ junk).2 (by simp [InBounds])

/-- from 1 km to 500 m with fewer columns of latitudes than of longitudes -/
example (mc : MapCoord α) (f g : Nat → Nat → α) (junk) :=
  (C48_exact mc 1000 500 10 rfl ⟨10, 1354, f⟩ ⟨10, 1353, g⟩ junk).2 (by simp [InBounds])

example (mc : MapCoord α) (f g : Nat → Nat → α) (junk) :=
  C48_unknown mc 750 250 (by omega) ⟨2, 270, f⟩ ⟨2, 270, g⟩ junk

end bounds

/-! ### C92 -/

/-- position along track, in coarse rows counted from the centre of the first, of the centre of fine row `j` where every coarse row
is divided into `f` equal fine rows -/
noncomputable def fineCentre (f j : Nat) : ℝ := (j + 1 / 2) / f - 1 / 2

/-- **C92 (offset)**: the position along track at which the simple interpolator takes the values of fine row `j` is before the centre of
that row by `(f - 2) (f - 4) / (16 f)` coarse rows, for every factor `f`. -/
theorem C92_offset (f : Nat) (hf : 0 < f) (j : Nat) :
    (coordY f j : FP ℝ) = .val (fineCentre f j - ((f : ℝ) - 2) * (f - 4) / (16 * f)) := by
  have h : (f : ℝ) ≠ 0 := by exact_mod_cast hf.ne'
  unfold coordY fineCentre
  simp only [FP.toFloating_eq, FP.ofInt_eq, FP.one_eq, FP.ofNat_eq]
  simp [h]
  field_simp
  ring

example : (coordY 10 7 : FP ℝ) = .val (fineCentre 10 7 - 8 * 6 / 160) := by
  rw [C92_offset 10 (by omega) 7]
  norm_num

/-- **C92 (which factors)**: it is the centre of the row for factors 2 and 4, and for no other factor. -/
theorem C92_alignment (f : Nat) (hf : 0 < f) (j : Nat) :
    (coordY f j : FP ℝ) = .val (fineCentre f j) ↔ f = 2 ∨ f = 4 := by
  have h : (f : ℝ) ≠ 0 := by exact_mod_cast hf.ne'
  rw [C92_offset f hf j]
  constructor
  · intro e
    injection e with e
    have : ((f : ℝ) - 2) * (f - 4) / (16 * f) = 0 := by linarith
    rw [div_eq_zero_iff, mul_eq_zero] at this
    rcases this with (h1 | h1) | h1
    · left; have : (f : ℝ) = (2 : Nat) := by push_cast; linarith
      exact_mod_cast this
    · right; have : (f : ℝ) = (4 : Nat) := by push_cast; linarith
      exact_mod_cast this
    · exact absurd h1 (by positivity)
  · rintro (rfl | rfl) <;> norm_num

/-- **C92 is false of the code**: from 5000 m to 500 m, which the function accepts and computes without leaving its arrays, all rows
are taken 3/10 of a coarse row too early. -/
theorem C92_negation (mc : MapCoord (FP ℝ)) (n C : Nat) (hC : 1 ≤ C) (lon lat : Arr2 (FP ℝ)) (h1 : lon.rows = n * 2) (h2 : lon.cols = C)
    (h3 : lat.rows = n * 2) (h4 : lat.cols = C) (junk : Nat → Nat → Nat → Nat → FP ℝ) :
    (∃ out, interpolate mc 5000 500 lon lat junk = .ok out) ∧
      ∀ j, (coordY (5000 / 500) j : FP ℝ) = .val (fineCentre 10 j - 3 / 10) := by
  constructor
  · obtain ⟨out, e, _⟩ := (C48_exact mc 5000 500 2 rfl lon lat junk).1
      ⟨by omega, Or.inr ⟨Or.inr (by omega), Or.inr (by rw [h2]; norm_num; omega)⟩⟩
    exact ⟨out, e⟩
  · intro j
    rw [show 5000 / 500 = 10 from rfl, C92_offset 10 (by omega)]
    norm_num

example := C92_alignment 10 (by omega) 7

example (mc : MapCoord (FP ℝ)) (f g : Nat → Nat → FP ℝ) (junk) := C92_negation mc 3 270 (by omega) ⟨6, 270, f⟩ ⟨6, 270, g⟩ rfl rfl rfl rfl junk

end Verif.Props
