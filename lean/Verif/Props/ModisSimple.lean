import Verif.Proofs.ModisSimple

/-!
# C37: structure of the simple MODIS interpolation

Every theorem holds for every arithmetic `α` and every behaviour `mc` of `map_coordinates`.
-/

namespace Verif.Props
open Verif Verif.ModisSimple Verif.Spec.ModisSimple

/-- The two public conversions of `simple_modis_interpolator.py`. -/
inductive SConv where
  | km1to500 | km1to250
deriving DecidableEq, Repr

namespace SConv
variable {α : Type} [Trig α]

/-- the public function (numpy arrays) -/
def run : SConv → MapCoord α → Arr2 α → Arr2 α → (Nat → Nat → Nat → Nat → α) → Except Err (Arr2 α × Arr2 α)
  | km1to500 => modis1kmTo500m
  | km1to250 => modis1kmTo250m

/-- fine pixels per tie pixel -/
def factor : SConv → Nat
  | km1to500 => 2 | km1to250 => 4

theorem factor_ok (c : SConv) : Factor c.factor := by cases c <;> simp [factor, Factor]

theorem run_eq (c : SConv) (mc : MapCoord α) (lon lat : Arr2 α) (junk) :
    c.run mc lon lat junk = interpolateRF mc 10 c.factor lon lat junk := by
  cases c <;> rfl

end SConv

/-- Two input arrays of `n` whole scans with the same number (at least two) of columns. -/
structure SInput {α : Type} (n : Nat) (lon lat : Arr2 α) : Prop where
  cols : 2 ≤ lon.cols
  lonRows : lon.rows = n * 10
  latRows : lat.rows = n * 10
  latCols : lat.cols = lon.cols

variable {α : Type} [Trig α]

/-- The run of a public conversion on whole scans, in terms of the per-pixel formula. -/
theorem srun_pixel (c : SConv) (mc : MapCoord α) {n : Nat} {lon lat : Arr2 α} (h : SInput n lon lat)
    (junk : Nat → Nat → Nat → Nat → α) :
    ∃ out, c.run mc lon lat junk = .ok out ∧
      out.1.Holds (lon.rows * c.factor) (lon.cols * c.factor)
        (fun r k => (pixel mc c.factor lon.cols lon.cell lat.cell r k).1) (fun _ _ => True) ∧
      out.2.Holds (lon.rows * c.factor) (lon.cols * c.factor)
        (fun r k => (pixel mc c.factor lon.cols lon.cell lat.cell r k).2) (fun _ _ => True) := by
  obtain ⟨out, e, p1, p2⟩ := interpolateRF_ok (mc := mc) c.factor_ok h.cols ⟨h.lonRows, rfl⟩ ⟨h.latRows, h.latCols⟩ junk
  rw [h.lonRows, Nat.mul_comm lon.cols]
  exact ⟨out, by rw [c.run_eq, e], p1, p2⟩

/-- **C37 (safety, initialisation, shape)**: for whole scans and at least two columns, no access is out of bounds and the
result, of shape `(rows*f, cols*f)`, is the same whatever the initial content of the work and output arrays. -/
theorem C37_safe_initialised (c : SConv) (mc : MapCoord α) (n : Nat) (lon lat : Arr2 α) (h : SInput n lon lat) :
    ∃ L A : Nat → Nat → α, ∀ junk, ∃ out, c.run mc lon lat junk = .ok out ∧
      out.1.Holds (lon.rows * c.factor) (lon.cols * c.factor) L (fun _ _ => True) ∧
      out.2.Holds (lon.rows * c.factor) (lon.cols * c.factor) A (fun _ _ => True) :=
  ⟨_, _, fun junk => srun_pixel c mc h junk⟩

example (mc : MapCoord α) (f g : Nat → Nat → α) : ∃ L A : Nat → Nat → α, ∀ junk, ∃ out,
    modis1kmTo250m mc ⟨30, 2, f⟩ ⟨30, 2, g⟩ junk = .ok out ∧
      out.1.Holds 120 8 L (fun _ _ => True) ∧ out.2.Holds 120 8 A (fun _ _ => True) :=
  C37_safe_initialised .km1to250 mc 3 ⟨30, 2, f⟩ ⟨30, 2, g⟩ ⟨le_refl _, rfl, rfl, rfl⟩

/-- **C37 (scan independence)**: the rows of scan `s` are the result of interpolating scan `s` alone. -/
theorem C37_scan_independent (c : SConv) (mc : MapCoord α) (n s : Nat) (hs : s < n) (lon lat : Arr2 α)
    (h : SInput n lon lat) (junk junk' : Nat → Nat → Nat → Nat → α) :
    ∃ out out', c.run mc lon lat junk = .ok out ∧
      c.run mc (lon.rowSlice (s * 10) ((s + 1) * 10)) (lat.rowSlice (s * 10) ((s + 1) * 10)) junk' = .ok out' ∧
      ∀ r k, r < 10 * c.factor → k < lon.cols * c.factor →
        out.1.cell (s * (10 * c.factor) + r) k = out'.1.cell r k ∧
        out.2.cell (s * (10 * c.factor) + r) k = out'.2.cell r k := by
  have hslice : ∀ a : Arr2 α, a.rows = n * 10 → (a.rowSlice (s * 10) ((s + 1) * 10)).rows = 1 * 10 := by
    intro a ha
    simp only [Arr2.rowSlice, ha]; omega
  obtain ⟨out, e, p1, p2⟩ := srun_pixel c mc h junk
  obtain ⟨out', e', p1', p2'⟩ := srun_pixel c mc (n := 1)
    (lon := lon.rowSlice (s * 10) ((s + 1) * 10)) (lat := lat.rowSlice (s * 10) ((s + 1) * 10))
    ⟨h.cols, hslice _ h.lonRows, hslice _ h.latRows, h.latCols⟩ junk'
  refine ⟨out, out', e, e', fun r k hr hk => ?_⟩
  have hp : pixel mc c.factor lon.cols lon.cell lat.cell (s * (10 * c.factor) + r) k
      = pixel mc c.factor lon.cols (lon.rowSlice (s * 10) ((s + 1) * 10)).cell
        (lat.rowSlice (s * 10) ((s + 1) * 10)).cell r k := by
    rw [pixel_block _ _ hr]
    have h2 := pixel_block (mc := mc) (f := c.factor) (C := lon.cols) (lon.rowSlice (s * 10) ((s + 1) * 10)).cell
      (lat.rowSlice (s * 10) ((s + 1) * 10)).cell (s := 0) (r := r) (c := k) hr
    rw [Nat.zero_mul, Nat.zero_mul, Nat.zero_add] at h2
    rw [h2]
    simp only [scanPixel, Spec.Modis.ties, Spec.Modis.tieXyz, Arr2.rowSlice, Nat.zero_add]
  have hr1 : r < (lon.rowSlice (s * 10) ((s + 1) * 10)).rows * c.factor := by rw [hslice _ h.lonRows]; omega
  have hrn : s * (10 * c.factor) + r < lon.rows * c.factor := by
    have h1 : (s + 1) * 10 * c.factor ≤ n * 10 * c.factor := Nat.mul_le_mul_right _ (by omega)
    have h2 : (s + 1) * 10 * c.factor = s * (10 * c.factor) + 10 * c.factor := by ring
    rw [h.lonRows]; omega
  constructor
  · rw [p1.cell _ k hrn hk trivial, p1'.cell r k hr1 hk trivial, hp]; rfl
  · rw [p2.cell _ k hrn hk trivial, p2'.cell r k hr1 hk trivial, hp]; rfl

example (mc : MapCoord α) (f g : Nat → Nat → α) (junk junk') :=
  C37_scan_independent .km1to500 mc 3 2 (by omega) ⟨30, 5, f⟩ ⟨30, 5, g⟩ ⟨by simp, rfl, rfl, rfl⟩ junk junk'

/-! ## C39 for the simple interpolator -/

/-- **C39, negation (simple interpolator)**: with rows left over after the last whole scan the run succeeds and the
last `m * f` output rows are the initial memory content. -/
theorem C39_negation_simple (c : SConv) (mc : MapCoord α) (n m : Nat) (hm : m < 10) (lon lat : Arr2 α)
    (hc : 2 ≤ lon.cols) (h1 : lon.rows = n * 10 + m) (h2 : lat.rows = n * 10 + m) (h3 : lat.cols = lon.cols)
    (junk : Nat → Nat → Nat → Nat → α) :
    ∃ out, c.run mc lon lat junk = .ok out ∧
      ∀ r k, n * 10 * c.factor ≤ r → r < lon.rows * c.factor → k < lon.cols * c.factor →
        out.1.cell r k = junk 3 0 r k ∧ out.2.cell r k = junk 4 0 r k := by
  obtain ⟨out, e, p1, p2⟩ := interpolateRF_rem (mc := mc) c.factor_ok hc hm ⟨h1, rfl⟩ ⟨h2, h3⟩ junk
  refine ⟨out, by rw [c.run_eq, e], fun r k hr hr' hk => ?_⟩
  rw [Nat.mul_comm] at hk
  rw [p1.cell r k hr' hk trivial, p2.cell r k hr' hk trivial, if_neg (by rw [← Nat.mul_assoc]; omega),
    if_neg (by rw [← Nat.mul_assoc]; omega)]
  exact ⟨rfl, rfl⟩

example (mc : MapCoord α) (f g : Nat → Nat → α) (junk) :=
  C39_negation_simple .km1to500 mc 0 3 (by omega) ⟨3, 7, f⟩ ⟨3, 7, g⟩ (by simp) rfl rfl rfl junk

/-- **C39 (whole scans, simple interpolator)**: the rows of the whole scans are those of the arrays cut after the last of them. -/
theorem C39_whole_scans_simple (c : SConv) (mc : MapCoord α) (n m : Nat) (hm : m < 10) (lon lat : Arr2 α)
    (hc : 2 ≤ lon.cols) (h1 : lon.rows = n * 10 + m) (h2 : lat.rows = n * 10 + m) (h3 : lat.cols = lon.cols)
    (junk junk' : Nat → Nat → Nat → Nat → α) :
    ∃ out cut, c.run mc lon lat junk = .ok out ∧
      c.run mc (lon.rowSlice 0 (n * 10)) (lat.rowSlice 0 (n * 10)) junk' = .ok cut ∧
      cut.1.rows = n * 10 * c.factor ∧
      ∀ r k, r < n * 10 * c.factor → k < lon.cols * c.factor →
        out.1.cell r k = cut.1.cell r k ∧ out.2.cell r k = cut.2.cell r k := by
  have hs : ∀ a : Arr2 α, a.rows = n * 10 + m → (a.rowSlice 0 (n * 10)).rows = n * 10 := by
    intro a ha; simp only [Arr2.rowSlice, ha]; omega
  obtain ⟨out, e, p1, p2⟩ := interpolateRF_rem (mc := mc) c.factor_ok hc hm ⟨h1, rfl⟩ ⟨h2, h3⟩ junk
  obtain ⟨cut, e', q1, q2⟩ := interpolateRF_rem (mc := mc) (lon := lon.rowSlice 0 (n * 10)) (lat := lat.rowSlice 0 (n * 10))
    (n := n) (m := 0) c.factor_ok hc (by omega) ⟨by rw [hs _ h1, Nat.add_zero], rfl⟩ ⟨by rw [hs _ h2, Nat.add_zero], h3⟩ junk'
  rw [hs _ h1] at q1 q2
  refine ⟨out, cut, by rw [c.run_eq, e], by rw [c.run_eq]; exact e', q1.rows, fun r k hr hk => ?_⟩
  have hr' : r < lon.rows * c.factor := lt_of_lt_of_le hr (Nat.mul_le_mul_right _ (by omega))
  rw [Nat.mul_comm] at hk
  have hr2 : r < n * (10 * c.factor) := by rw [← Nat.mul_assoc]; exact hr
  rw [p1.cell r k hr' hk trivial, p2.cell r k hr' hk trivial, q1.cell r k hr hk trivial, q2.cell r k hr hk trivial,
    if_pos hr2, if_pos hr2, if_pos hr2, if_pos hr2]
  simp only [Arr2.rowSlice, Nat.zero_add, and_self]

example (mc : MapCoord α) (f g : Nat → Nat → α) (junk junk') :=
  C39_whole_scans_simple .km1to500 mc 1 3 (by omega) ⟨13, 7, f⟩ ⟨13, 7, g⟩ (by simp) rfl rfl rfl junk junk'

/-! ## C48: inputs accepted by the simple interpolator for which it leaves its arrays -/

/-- **C48, negation (columns)**: with fewer than two columns (and at least one scan) the public functions, which do
not check the width, access memory out of bounds, whatever the content. -/
theorem C48_negation_columns (c : SConv) (mc : MapCoord α) (n : Nat) (hn : 1 ≤ n) (lon lat : Arr2 α)
    (hc : lon.cols < 2) (h1 : lon.rows = n * 10) (h2 : lat.rows = n * 10) (h3 : lat.cols = lon.cols)
    (junk : Nat → Nat → Nat → Nat → α) : c.run mc lon lat junk = .error .ub := by
  rw [c.run_eq]
  refine interpolateRF_ub (by omega) hn ⟨h1, rfl⟩ ⟨h2, h3⟩ (fun co xyz res _ hr hcol => ?_) junk
  refine interpScan_narrow_ub ?_ ?_
  · rw [hr]; cases c <;> simp [SConv.factor]
  · rw [hcol]; cases c <;> simp [SConv.factor, nRight] <;> omega

example (mc : MapCoord α) (f g : Nat → Nat → α) (junk) : modis1kmTo250m mc ⟨10, 1, f⟩ ⟨10, 1, g⟩ junk = .error .ub :=
  C48_negation_columns .km1to250 mc 1 (by omega) ⟨10, 1, f⟩ ⟨10, 1, g⟩ (by simp) rfl rfl rfl junk

/-- **C48, negation (resolutions)**: `interpolate_geolocation_cartesian` with resolutions 1000 → 1000 or 5000 → 1000,
which it does not reject, accesses memory out of bounds for every input with a scan and a column. -/
theorem C48_negation_resolutions (mc : MapCoord α) (coarse rps : Nat)
    (hres : (coarse = 1000 ∧ rps = 10) ∨ (coarse = 5000 ∧ rps = 2)) (n : Nat) (hn : 1 ≤ n) (lon lat : Arr2 α)
    (hc : 1 ≤ lon.cols) (h1 : lon.rows = n * rps) (h2 : lat.rows = n * rps) (h3 : lat.cols = lon.cols)
    (junk : Nat → Nat → Nat → Nat → α) : interpolate mc coarse 1000 lon lat junk = .error .ub := by
  rcases hres with ⟨rfl, rfl⟩ | ⟨rfl, rfl⟩
  · show interpolateRF mc 10 1 lon lat junk = _
    exact interpolateRF_ub (by omega) hn ⟨h1, rfl⟩ ⟨h2, h3⟩ (fun co xyz res hco hr hcol =>
      interpScan_short_ub (by omega) hco (by omega) hr hcol (by omega) (by omega)) junk
  · show interpolateRF mc 2 5 lon lat junk = _
    exact interpolateRF_ub (by omega) hn ⟨h1, rfl⟩ ⟨h2, h3⟩ (fun co xyz res hco hr hcol =>
      interpScan_short_ub (by omega) hco (by omega) hr hcol (by omega) (by omega)) junk

example (mc : MapCoord α) (f g : Nat → Nat → α) (junk) :
    interpolate mc 1000 1000 ⟨10, 1354, f⟩ ⟨10, 1354, g⟩ junk = .error .ub :=
  C48_negation_resolutions mc 1000 10 (Or.inl ⟨rfl, rfl⟩) 1 (by omega) ⟨10, 1354, f⟩ ⟨10, 1354, g⟩ (by simp) rfl rfl
    rfl junk

end Verif.Props
