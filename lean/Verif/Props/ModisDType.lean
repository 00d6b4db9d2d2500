import Verif.Model.ModisDType
import Verif.Props.Modis
import Verif.Props.ModisSimple
import Verif.Base.RealTrig

/-!
# C63: element types accepted by the MODIS functions

Claim of the code (the fused type `floating`): float32 and float64 arrays are both accepted, and the results have the type
of the inputs.  True of the simple interpolation; false of the interpolation with the zenith angle, which accepts nothing
but float32.
-/

namespace Verif.Props
open Verif Verif.Modis
variable {α : Type} [Trig α]

/-- the public conversions on typed numpy arrays -/
def typedRun : Conv → NdArr α → NdArr α → NdArr α → (Nat → Nat → Nat → Nat → α) → Except Err (DType × Arr2 α × Arr2 α)
  | .km1to500 => modisTyped 1000 500
  | .km1to250 => modisTyped 1000 250
  | .km5to1 => modisTyped 5000 1000
  | .km5to500 => modisTyped 5000 500
  | .km5to250 => modisTyped 5000 250

/-- for two-dimensional arrays of a supported width -/
private theorem typedRun_eq (c : Conv) (lon lat satz : NdArr α) (junk) (h2 : lon.ndim = 2) (hw : c.WidthOk lon.arr.cols) :
    typedRun c lon lat satz junk
      = (fusedSelect lon >>= fun t => acquire t 2 lat.dtype lat.ndim >>= fun _ => acquire t 2 satz.dtype satz.ndim >>= fun _ =>
          acquire t 1 coordsDType 1 >>= fun _ => c.run lon.arr lat.arr satz.arr junk >>= fun out => .ok (lon.dtype, out)) := by
  rw [c.run_eq _ _ _ _ hw]
  have h3 : ¬ lon.ndim < 2 := by omega
  cases c with
  | km1to500 => simp [typedRun, modisTyped, interpolateTyped, h2, mkCfg, Conv.cfg, bind, Except.bind]
  | km1to250 => simp [typedRun, modisTyped, interpolateTyped, h2, mkCfg, Conv.cfg, bind, Except.bind]
  | km5to1 =>
    rcases hw with h | h <;> simp [typedRun, modisTyped, interpolateTyped, h2, mkCfg, Conv.cfg, bind, Except.bind, h]
  | km5to500 =>
    rcases hw with h | h <;> simp [typedRun, modisTyped, interpolateTyped, h2, mkCfg, Conv.cfg, bind, Except.bind, h]
  | km5to250 =>
    rcases hw with h | h <;> simp [typedRun, modisTyped, interpolateTyped, h2, mkCfg, Conv.cfg, bind, Except.bind, h]

/-- **C63 (float32)**: float32 arrays of whole scans are accepted and the results are float32. -/
theorem C63_float32 (c : Conv) (n : Nat) (lon lat satz : Arr2 α) (h : ScanInput c n lon lat satz) (junk) :
    ∃ out, c.run lon lat satz junk = .ok out ∧
      typedRun c ⟨.float32, 2, lon⟩ ⟨.float32, 2, lat⟩ ⟨.float32, 2, satz⟩ junk = .ok (.float32, out) := by
  obtain ⟨out, e, -, -⟩ := run_pixel c h junk
  refine ⟨out, e, ?_⟩
  rw [typedRun_eq c _ _ _ _ rfl h.width]
  simp [fusedSelect, acquire, coordsDType, e, bind, Except.bind]

example (f g h : Nat → Nat → α) (junk) : ∃ out, Conv.km1to250.run (⟨10, 1354, f⟩ : Arr2 α) ⟨10, 1354, g⟩ ⟨10, 1354, h⟩ junk = .ok out ∧
    typedRun .km1to250 ⟨.float32, 2, ⟨10, 1354, f⟩⟩ ⟨.float32, 2, ⟨10, 1354, g⟩⟩ ⟨.float32, 2, ⟨10, 1354, h⟩⟩ junk = .ok (.float32, out) :=
  C63_float32 .km1to250 1 ⟨10, 1354, f⟩ ⟨10, 1354, g⟩ ⟨10, 1354, h⟩ ⟨rfl, rfl, rfl, rfl, rfl, rfl⟩ junk

/-- **C63 (negation)**: whatever the sizes and contents, float64 longitudes never give a result. -/
theorem C63_negation_float64 (c : Conv) (lon lat satz : NdArr α) (h : lon.dtype = .float64) (junk)
    (out : DType × Arr2 α × Arr2 α) : typedRun c lon lat satz junk ≠ .ok out := by
  have key : ∀ coarse fine width, interpolateTyped coarse fine width lon lat satz junk ≠ .ok out := by
    intro coarse fine width e
    unfold interpolateTyped at e
    split at e
    · cases e
    next h2 =>
    have h2 : lon.ndim = 2 := by omega
    simp only [fusedSelect, h2, h, if_true, bind, Except.bind] at e
    split at e
    · cases e
    split at e
    · cases e
    split at e
    · cases e
    split at e
    · cases e
    simp [acquire, coordsDType] at e
  have key2 : ∀ coarse fine, modisTyped coarse fine lon lat satz junk ≠ .ok out := by
    intro coarse fine e
    unfold modisTyped at e
    split at e
    · split at e
      · cases e
      · exact key _ _ _ e
    · exact key _ _ _ e
  cases c <;> exact key2 _ _

/-- **C63 (what is accepted)**: for whole scans in two-dimensional arrays there is a result exactly if all three arrays are
float32.  Otherwise the error is TypeError if the longitudes are neither float32 nor float64, and ValueError else. -/
theorem C63_accepted_iff (c : Conv) (n : Nat) (lon lat satz : NdArr α) (h : ScanInput c n lon.arr lat.arr satz.arr)
    (h1 : lon.ndim = 2) (h2 : lat.ndim = 2) (h3 : satz.ndim = 2) (junk) :
    ((∃ out, typedRun c lon lat satz junk = .ok out) ↔
      lon.dtype = .float32 ∧ lat.dtype = .float32 ∧ satz.dtype = .float32) ∧
    (¬ (lon.dtype = .float32 ∧ lat.dtype = .float32 ∧ satz.dtype = .float32) →
      typedRun c lon lat satz junk = .error (if lon.dtype = .other then .typeError else .valueError)) := by
  obtain ⟨out, e, -, -⟩ := run_pixel c h junk
  rw [typedRun_eq c _ _ _ _ h1 h.width, e]
  obtain ⟨d1, n1, a1⟩ := lon
  obtain ⟨d2, n2, a2⟩ := lat
  obtain ⟨d3, n3, a3⟩ := satz
  simp only at h1 h2 h3
  subst h1 h2 h3
  cases d1 <;> cases d2 <;> cases d3 <;> simp [fusedSelect, acquire, coordsDType, bind, Except.bind]

/-- all arguments float64, as numpy makes them by default -/
example (junk : Nat → Nat → Nat → Nat → FP ℝ) :
    typedRun .km1to250 ⟨.float64, 2, ⟨10, 1354, fun _ j => .val (j : ℝ)⟩⟩ ⟨.float64, 2, ⟨10, 1354, fun i _ => .val (i : ℝ)⟩⟩
      ⟨.float64, 2, ⟨10, 1354, fun _ _ => .val 30⟩⟩ junk = .error .valueError := by
  have h : ScanInput (α := FP ℝ) .km1to250 1 ⟨10, 1354, fun _ j => .val (j : ℝ)⟩ ⟨10, 1354, fun i _ => .val (i : ℝ)⟩
      ⟨10, 1354, fun _ _ => .val 30⟩ := ⟨rfl, rfl, rfl, rfl, rfl, rfl⟩
  exact (C63_accepted_iff .km1to250 1 ⟨.float64, 2, _⟩ ⟨.float64, 2, _⟩ ⟨.float64, 2, _⟩ h rfl rfl rfl junk).2 (by simp)

/-- is the input at 5 km -/
def isFive : Conv → Prop
  | .km1to500 => False
  | .km1to250 => False
  | _ => True

/-- **C63 (dimensions)**: longitudes that are not two-dimensional raise ValueError, except that the 5 km functions raise
IndexError for zero or one dimension; so do float32 latitudes or angles that are not two-dimensional (ValueError). -/
theorem C63_dimensions (c : Conv) (lon lat satz : NdArr α) (junk) :
    (lon.ndim ≠ 2 → (isFive c → 2 < lon.ndim) → typedRun c lon lat satz junk = .error .valueError) ∧
    (lon.ndim < 2 → isFive c → typedRun c lon lat satz junk = .error .indexError) ∧
    (lon.ndim = 2 → lon.dtype = .float32 → lat.ndim ≠ 2 ∨ satz.ndim ≠ 2 →
      typedRun c lon lat satz junk = .error .valueError) := by
  have key : ∀ coarse fine width, lon.ndim = 2 → lon.dtype = .float32 → lat.ndim ≠ 2 ∨ satz.ndim ≠ 2 →
      interpolateTyped coarse fine width lon lat satz junk = .error .valueError := by
    intro coarse fine width h1 h2 h3
    by_cases hl : lat.ndim = 2 ∧ lat.dtype = .float32
    · have hs : satz.ndim ≠ 2 := h3.resolve_left (by simp [hl.1])
      simp [interpolateTyped, fusedSelect, acquire, h1, h2, hl, hs, bind, Except.bind]
    · simp [interpolateTyped, fusedSelect, acquire, h1, h2, hl, bind, Except.bind]
  refine ⟨fun h1 h2 => ?_, fun h1 h2 => ?_, fun h1 h2 h3 => ?_⟩
  · cases c <;> simp only [isFive, forall_true_left] at h2 <;>
      simp [typedRun, modisTyped, interpolateTyped, h1] <;> omega
  · cases c <;> first | exact h2.elim | simp [typedRun, modisTyped, h1]
  · cases c <;> simp [typedRun, modisTyped, h1, key _ _ _ h1 h2 h3]

example (lat satz : NdArr (FP ℝ)) (junk : Nat → Nat → Nat → Nat → FP ℝ) :
    typedRun .km5to1 ⟨.float32, 1, ⟨10, 270, fun _ _ => .val 0⟩⟩ lat satz junk = .error .indexError :=
  (C63_dimensions .km5to1 _ lat satz junk).2.1 (by norm_num) trivial

/-- **C63 (width)**: 5 km arrays of one floating-point type whose width is not 0, 270 or 271 raise NotImplementedError; this
comes before the error about float64. -/
theorem C63_width (c : Conv) (lon lat satz : NdArr α) (junk) (hc : isFive c) (h1 : lon.ndim = 2) (h2 : lat.ndim = 2)
    (h3 : satz.ndim = 2) (ht : lon.dtype ≠ .other) (h4 : lat.dtype = lon.dtype) (h5 : satz.dtype = lon.dtype)
    (hw : lon.arr.cols ≠ 0 ∧ lon.arr.cols ≠ 270 ∧ lon.arr.cols ≠ 271) :
    typedRun c lon lat satz junk = .error .notImplemented := by
  obtain ⟨d1, n1, a1⟩ := lon
  obtain ⟨d2, n2, a2⟩ := lat
  obtain ⟨d3, n3, a3⟩ := satz
  simp only at h1 h2 h3 ht h4 h5 hw
  subst h1 h2 h3 h4 h5
  cases c <;> first
    | exact hc.elim
    | (cases d3 <;> first
      | exact absurd rfl ht
      | simp [typedRun, modisTyped, interpolateTyped, fusedSelect, acquire, hw, bind, Except.bind])

example (f : Nat → Nat → FP ℝ) (junk : Nat → Nat → Nat → Nat → FP ℝ) :
    typedRun .km5to1 ⟨.float64, 2, ⟨2, 300, f⟩⟩ ⟨.float64, 2, ⟨2, 300, f⟩⟩ ⟨.float64, 2, ⟨2, 300, f⟩⟩ junk = .error .notImplemented :=
  C63_width .km5to1 _ _ _ junk trivial rfl rfl rfl (by simp) rfl rfl (by simp)

/-- **C63 (simple interpolation)**: for whole scans there is a result exactly if both arrays have the same element type,
float32 or float64; the results have that type too, and do not depend on it otherwise. -/
theorem C63_simple (c : SConv) (mc : ModisSimple.MapCoord α) (n : Nat) (lon lat : Arr2 α) (h : SInput n lon lat)
    (t t' : DType) (junk) :
    ∃ out, c.run mc lon lat junk = .ok out ∧
      ModisSimple.interpolateTyped mc 1000 (1000 / c.factor) ⟨t, 2, lon⟩ ⟨t', 2, lat⟩ junk
        = if t = .other then .error .typeError else if t' = t then .ok (t, out) else .error .valueError := by
  obtain ⟨out, e, -, -⟩ := srun_pixel c mc h junk
  refine ⟨out, e, ?_⟩
  have e' : ModisSimple.interpolate mc 1000 (1000 / c.factor) lon lat junk = .ok out := by
    rw [← e]; cases c <;> rfl
  unfold ModisSimple.interpolateTyped
  simp only [e']
  cases t <;> cases t' <;> simp [fusedSelect, acquire, bind, Except.bind]

/-- float64 input, float64 result -/
example (mc : ModisSimple.MapCoord (FP ℝ)) (junk : Nat → Nat → Nat → Nat → FP ℝ) :
    ∃ out, ModisSimple.interpolateTyped mc 1000 250 ⟨.float64, 2, ⟨10, 4, fun _ j => .val (j : ℝ)⟩⟩
      ⟨.float64, 2, ⟨10, 4, fun i _ => .val (i : ℝ)⟩⟩ junk = .ok (.float64, out) := by
  obtain ⟨out, -, e⟩ := C63_simple .km1to250 mc 1 ⟨10, 4, fun _ j => .val (j : ℝ)⟩ ⟨10, 4, fun i _ => .val (i : ℝ)⟩
    ⟨by norm_num, rfl, rfl, rfl⟩ .float64 .float64 junk
  exact ⟨out, e⟩

end Verif.Props
