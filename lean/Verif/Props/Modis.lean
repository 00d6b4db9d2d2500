import Verif.Proofs.Modis

/-!
# C27–C29, C35, C39: structure of the satellite-angle MODIS interpolation

Theorems in this file hold for every arithmetic `α` (no law is used), hence bit for bit for floating point.
-/

namespace Verif.Props
open Verif Verif.Modis Verif.Spec.Modis

/-- The public conversions of `modisinterpolator.py`. -/
inductive Conv where
  | km1to500 | km1to250 | km5to1 | km5to500 | km5to250
deriving DecidableEq, Repr

namespace Conv
variable {α : Type} [Trig α]

/-- the public function (numpy arrays) -/
def run : Conv → Arr2 α → Arr2 α → Arr2 α → (Nat → Nat → Nat → Nat → α) → Except Err (Arr2 α × Arr2 α)
  | km1to500 => modis1kmTo500m
  | km1to250 => modis1kmTo250m
  | km5to1 => modis5kmTo1km
  | km5to500 => modis5kmTo500m
  | km5to250 => modis5kmTo250m

/-- tie rows per scan -/
def scanRows : Conv → Nat
  | km1to500 => 10 | km1to250 => 10 | _ => 2

/-- fine pixels per tie pixel -/
def factor : Conv → Nat
  | km1to500 => 2 | km1to250 => 4 | km5to1 => 5 | km5to500 => 10 | km5to250 => 20

/-- output columns -/
def outCols : Conv → Nat
  | km1to500 => 2708 | km1to250 => 5416 | km5to1 => 1354 | km5to500 => 2708 | km5to250 => 5416

/-- supported input widths -/
def WidthOk : Conv → Nat → Prop
  | km1to500, w => w = 1354
  | km1to250, w => w = 1354
  | _, w => w = 270 ∨ w = 271

/-- the configuration built by the constructor -/
def cfg : Conv → Nat → Cfg
  | km1to500, _ => ⟨10, 1354, 1, 2, 2708, 4⟩
  | km1to250, _ => ⟨10, 1354, 1, 4, 5416, 8⟩
  | km5to1, w => ⟨2, w, 5, 5, 1354, 2⟩
  | km5to500, w => ⟨2, w, 5, 10, 2708, 4⟩
  | km5to250, w => ⟨2, w, 5, 20, 5416, 8⟩

theorem cfg_geometry (c : Conv) {w : Nat} (hw : c.WidthOk w) : Geometry (c.cfg w) := by
  cases c with
  | km1to500 => exact Geometry.km1 2 (by omega)
  | km1to250 => exact Geometry.km1 4 (by omega)
  | km5to1 => exact Geometry.km5 1 w (by omega) hw
  | km5to500 => exact Geometry.km5 2 w (by omega) hw
  | km5to250 => exact Geometry.km5 4 w (by omega) hw

theorem cfg_len (c : Conv) (w : Nat) : (c.cfg w).len = c.scanRows := by cases c <;> rfl
theorem cfg_f (c : Conv) (w : Nat) : (c.cfg w).f = c.factor := by cases c <;> rfl
theorem cfg_fineWidth (c : Conv) (w : Nat) : (c.cfg w).fineWidth = c.outCols := by cases c <;> rfl
theorem cfg_width (c : Conv) {w : Nat} (hw : c.WidthOk w) : (c.cfg w).width = w := by
  cases c <;> first | rfl | exact hw.symm

theorem run_eq (c : Conv) (lon lat satz : Arr2 α) (junk : Nat → Nat → Nat → Nat → α)
    (hw : c.WidthOk lon.cols) :
    c.run lon lat satz junk = interpolateCfg (c.cfg lon.cols) lon lat satz junk := by
  cases c with
  | km1to500 => rfl
  | km1to250 => rfl
  | km5to1 => rcases hw with h | h <;> simp [run, modis5kmTo1km, interpolate, mkCfg, cfg, h, bind, Except.bind]
  | km5to500 => rcases hw with h | h <;> simp [run, modis5kmTo500m, interpolate, mkCfg, cfg, h, bind, Except.bind]
  | km5to250 => rcases hw with h | h <;> simp [run, modis5kmTo250m, interpolate, mkCfg, cfg, h, bind, Except.bind]

end Conv

/-- Three input arrays of `n` whole scans, of a supported width. -/
structure ScanInput {α : Type} (c : Conv) (n : Nat) (lon lat satz : Arr2 α) : Prop where
  width : c.WidthOk lon.cols
  lonRows : lon.rows = n * c.scanRows
  latRows : lat.rows = n * c.scanRows
  satzRows : satz.rows = n * c.scanRows
  latCols : lat.cols = lon.cols
  satzCols : satz.cols = lon.cols

variable {α : Type} [Trig α]

/-- The run of a public conversion on whole scans, in terms of the per-pixel formula. -/
theorem run_pixel (c : Conv) {n : Nat} {lon lat satz : Arr2 α} (h : ScanInput c n lon lat satz)
    (junk : Nat → Nat → Nat → Nat → α) :
    ∃ out, c.run lon lat satz junk = .ok out ∧
      out.1.Holds (n * c.scanRows * c.factor) c.outCols
        (fun r k => (pixel (c.cfg lon.cols) lon.cell lat.cell satz.cell r k).1) (fun _ _ => True) ∧
      out.2.Holds (n * c.scanRows * c.factor) c.outCols
        (fun r k => (pixel (c.cfg lon.cols) lon.cell lat.cell satz.cell r k).2) (fun _ _ => True) := by
  have hw := c.cfg_width h.width
  obtain ⟨out, e, p1, p2⟩ := interpolateCfg_ok (c.cfg_geometry h.width) (lon := lon) (lat := lat) (satz := satz)
    (n := n) ⟨by rw [c.cfg_len, h.lonRows], hw.symm⟩ ⟨by rw [c.cfg_len, h.latRows], by rw [hw, h.latCols]⟩
    ⟨by rw [c.cfg_len, h.satzRows], by rw [hw, h.satzCols]⟩ junk
  rw [c.cfg_len, c.cfg_f, c.cfg_fineWidth] at p1 p2
  exact ⟨out, by rw [c.run_eq _ _ _ _ h.width, e], p1, p2⟩

/-! ## C27 -/

/-- **C27**: for whole scans of a supported width, every public conversion terminates without accessing memory out of
bounds (`.ok`, hence never `Err.ub`), the result has the right shape, and its content `L`, `A` is the same whatever
the initial content `junk` of all work and output arrays: every pixel is assigned, from initialised values only. -/
theorem C27_safe_initialised (c : Conv) (n : Nat) (lon lat satz : Arr2 α) (h : ScanInput c n lon lat satz) :
    ∃ L A : Nat → Nat → α, ∀ junk, ∃ out, c.run lon lat satz junk = .ok out ∧
      out.1.Holds (lon.rows * c.factor) c.outCols L (fun _ _ => True) ∧
      out.2.Holds (lon.rows * c.factor) c.outCols A (fun _ _ => True) := by
  refine ⟨fun r k => (pixel (c.cfg lon.cols) lon.cell lat.cell satz.cell r k).1,
    fun r k => (pixel (c.cfg lon.cols) lon.cell lat.cell satz.cell r k).2, fun junk => ?_⟩
  rw [h.lonRows]
  exact run_pixel c h junk

/-- an input of `n` scans with arbitrary content, to show that the hypotheses can be met -/
def sampleInput (c : Conv) (n w : Nat) (f : Nat → Nat → α) : Arr2 α := ⟨n * c.scanRows, w, f⟩

example (f g h : Nat → Nat → α) : ∃ L A : Nat → Nat → α, ∀ junk, ∃ out,
    modis5kmTo250m (sampleInput .km5to250 3 270 f) (sampleInput .km5to250 3 270 g)
      (sampleInput .km5to250 3 270 h) junk = .ok out ∧
      out.1.Holds (6 * 20) 5416 L (fun _ _ => True) ∧ out.2.Holds (6 * 20) 5416 A (fun _ _ => True) :=
  C27_safe_initialised .km5to250 3 _ _ _ ⟨Or.inl rfl, rfl, rfl, rfl, rfl, rfl⟩

/-! ## C28 -/

/-- **C28**: the rows of scan `s` in a multi-scan run are exactly the result of running scan `s` alone (with any two
initial memory contents). -/
theorem C28_scan_independent (c : Conv) (n s : Nat) (hs : s < n) (lon lat satz : Arr2 α)
    (h : ScanInput c n lon lat satz) (junk junk' : Nat → Nat → Nat → Nat → α) :
    ∃ out out', c.run lon lat satz junk = .ok out ∧
      c.run (lon.rowSlice (s * c.scanRows) ((s + 1) * c.scanRows))
        (lat.rowSlice (s * c.scanRows) ((s + 1) * c.scanRows))
        (satz.rowSlice (s * c.scanRows) ((s + 1) * c.scanRows)) junk' = .ok out' ∧
      ∀ r k, r < c.scanRows * c.factor → k < c.outCols →
        out.1.cell (s * c.scanRows * c.factor + r) k = out'.1.cell r k ∧
        out.2.cell (s * c.scanRows * c.factor + r) k = out'.2.cell r k := by
  have hsn : (s + 1) * c.scanRows ≤ n * c.scanRows := Nat.mul_le_mul_right _ hs
  have hs1 : (s + 1) * c.scanRows = s * c.scanRows + c.scanRows := by ring
  have hslice : ∀ a : Arr2 α, a.rows = n * c.scanRows →
      (a.rowSlice (s * c.scanRows) ((s + 1) * c.scanRows)).rows = 1 * c.scanRows := by
    intro a ha
    simp only [Arr2.rowSlice, ha]; omega
  obtain ⟨out, e, p1, p2⟩ := run_pixel c h junk
  obtain ⟨out', e', p1', p2'⟩ := run_pixel c (n := 1)
    (lon := lon.rowSlice (s * c.scanRows) ((s + 1) * c.scanRows))
    (lat := lat.rowSlice (s * c.scanRows) ((s + 1) * c.scanRows))
    (satz := satz.rowSlice (s * c.scanRows) ((s + 1) * c.scanRows))
    ⟨h.width, hslice _ h.lonRows, hslice _ h.latRows, hslice _ h.satzRows, h.latCols, h.satzCols⟩ junk'
  refine ⟨out, out', e, e', fun r k hr hk => ?_⟩
  have hsnf : (s + 1) * c.scanRows * c.factor ≤ n * c.scanRows * c.factor := Nat.mul_le_mul_right _ hsn
  have hs1f : (s + 1) * c.scanRows * c.factor = s * c.scanRows * c.factor + c.scanRows * c.factor := by ring
  have hp : pixel (c.cfg lon.cols) lon.cell lat.cell satz.cell (s * c.scanRows * c.factor + r) k
      = pixel (c.cfg (lon.rowSlice (s * c.scanRows) ((s + 1) * c.scanRows)).cols)
        (lon.rowSlice (s * c.scanRows) ((s + 1) * c.scanRows)).cell
        (lat.rowSlice (s * c.scanRows) ((s + 1) * c.scanRows)).cell
        (satz.rowSlice (s * c.scanRows) ((s + 1) * c.scanRows)).cell r k := by
    have hr' : r < (c.cfg lon.cols).len * (c.cfg lon.cols).f := by rw [c.cfg_len, c.cfg_f]; exact hr
    have h1 := pixel_block (cfg := c.cfg lon.cols) lon.cell lat.cell satz.cell (s := s) (c := k) hr'
    have h2 := pixel_block (cfg := c.cfg lon.cols)
      (lon.rowSlice (s * c.scanRows) ((s + 1) * c.scanRows)).cell
      (lat.rowSlice (s * c.scanRows) ((s + 1) * c.scanRows)).cell
      (satz.rowSlice (s * c.scanRows) ((s + 1) * c.scanRows)).cell (s := 0) (c := k) hr'
    rw [c.cfg_len, c.cfg_f] at h1 h2
    rw [show 0 * c.scanRows * c.factor + r = r by omega] at h2
    rw [h1]
    show _ = pixel (c.cfg lon.cols) _ _ _ r k
    rw [h2]
    simp only [Arr2.rowSlice, scanPixel, fineXyz, trackScan, ties, tieXyz, Nat.zero_mul, Nat.zero_add,
      Nat.add_assoc]
  have hr1 : r < 1 * c.scanRows * c.factor := by rw [Nat.one_mul]; exact hr
  have hrn : s * c.scanRows * c.factor + r < n * c.scanRows * c.factor := by
    rw [hs1f] at hsnf; exact Nat.lt_of_lt_of_le (Nat.add_lt_add_left hr _) hsnf
  constructor
  · rw [p1.cell _ k hrn hk trivial, p1'.cell r k hr1 hk trivial, hp]
  · rw [p2.cell _ k hrn hk trivial, p2'.cell r k hr1 hk trivial, hp]

example (f g h : Nat → Nat → α) (junk junk' : Nat → Nat → Nat → Nat → α) :=
  C28_scan_independent .km5to1 3 1 (by omega) (sampleInput .km5to1 3 271 f) (sampleInput .km5to1 3 271 g) (sampleInput .km5to1 3 271 h)
    ⟨Or.inr rfl, rfl, rfl, rfl, rfl, rfl⟩ junk junk'

/-! ## C29 -/

/-- first tie row of the cell of the fine row `r` of the swath -/
def tieRow (c : Conv) (w r : Nat) : Nat :=
  r / (c.scanRows * c.factor) * c.scanRows + cellRow (c.cfg w) (r % (c.scanRows * c.factor))

/-- first tie column of the cell of fine column `k` -/
def tieCol (c : Conv) (w k : Nat) : Nat := cellCol (c.cfg w) k

/-- The cell lies inside the scan of the pixel and inside the array. -/
theorem C29_cell_in_scan (c : Conv) (w : Nat) (hw : c.WidthOk w) (r k : Nat) :
    tieRow c w r / c.scanRows = r / (c.scanRows * c.factor) ∧
    (tieRow c w r + 1) / c.scanRows = r / (c.scanRows * c.factor) ∧ tieCol c w k + 1 < w := by
  have h := cellRow_lt (c.cfg_geometry hw) (r % (c.scanRows * c.factor))
  have h2 := cellCol_lt (c.cfg_geometry hw) k
  rw [c.cfg_len] at h
  rw [c.cfg_width hw] at h2
  refine ⟨div_block (by omega), ?_, h2⟩
  unfold tieRow
  rw [Nat.add_assoc]
  exact div_block h

example : tieRow .km1to250 1354 37 / 10 = 0 ∧ (tieRow .km1to250 1354 37 + 1) / 10 = 0 ∧ tieCol .km1to250 1354 5415 + 1 < 1354 :=
  C29_cell_in_scan .km1to250 1354 rfl 37 5415

/-- **C29**: two inputs (possibly of different numbers of scans) agreeing on the four longitudes and latitudes of the
cell of a pixel and on the two upper zenith angles give the same pixel, for every arithmetic. -/
theorem C29_locality (c : Conv) (n n' : Nat) (lon lat satz lon' lat' satz' : Arr2 α)
    (h : ScanInput c n lon lat satz) (h' : ScanInput c n' lon' lat' satz') (hw : lon'.cols = lon.cols)
    (junk junk' : Nat → Nat → Nat → Nat → α) (r k : Nat)
    (hr : r < lon.rows * c.factor) (hr' : r < lon'.rows * c.factor) (hk : k < c.outCols)
    (hlon : ∀ i j, (i = tieRow c lon.cols r ∨ i = tieRow c lon.cols r + 1) →
      (j = tieCol c lon.cols k ∨ j = tieCol c lon.cols k + 1) →
      lon.cell i j = lon'.cell i j ∧ lat.cell i j = lat'.cell i j)
    (hsatz : ∀ j, (j = tieCol c lon.cols k ∨ j = tieCol c lon.cols k + 1) →
      satz.cell (tieRow c lon.cols r) j = satz'.cell (tieRow c lon.cols r) j) :
    ∃ out out', c.run lon lat satz junk = .ok out ∧ c.run lon' lat' satz' junk' = .ok out' ∧
      out.1.cell r k = out'.1.cell r k ∧ out.2.cell r k = out'.2.cell r k := by
  obtain ⟨out, e, p1, p2⟩ := run_pixel c h junk
  obtain ⟨out', e', p1', p2'⟩ := run_pixel c h' junk'
  rw [h.lonRows] at hr
  rw [h'.lonRows] at hr'
  have hp : pixel (c.cfg lon.cols) lon.cell lat.cell satz.cell r k
      = pixel (c.cfg lon.cols) lon'.cell lat'.cell satz'.cell r k := by
    simp only [tieRow, tieCol, ← c.cfg_len lon.cols, ← c.cfg_f lon.cols] at hlon hsatz
    obtain ⟨a1, a2⟩ := hlon _ _ (Or.inl rfl) (Or.inl rfl)
    obtain ⟨b1, b2⟩ := hlon _ _ (Or.inl rfl) (Or.inr rfl)
    obtain ⟨c1, c2⟩ := hlon _ _ (Or.inr rfl) (Or.inr rfl)
    obtain ⟨d1, d2⟩ := hlon _ _ (Or.inr rfl) (Or.inl rfl)
    have s1 := hsatz _ (Or.inl rfl)
    have s2 := hsatz _ (Or.inr rfl)
    simp only [pixel, scanPixel, fineXyz, trackScan, ties, tieXyz, a1, a2, b1, b2, c1, c2, d1, d2, s1, s2]
  refine ⟨out, out', e, e', ?_, ?_⟩
  · rw [p1.cell r k hr hk trivial, p1'.cell r k hr' hk trivial, hw, hp]
  · rw [p2.cell r k hr hk trivial, p2'.cell r k hr' hk trivial, hw, hp]

/-- The hypotheses of C29 can be met by inputs that differ elsewhere: a single value changed in another cell. -/
example (f : Nat → Nat → α) (v : α) (junk : Nat → Nat → Nat → Nat → α) :
    ∃ out out', modis1kmTo500m (⟨20, 1354, f⟩ : Arr2 α) ⟨20, 1354, f⟩ ⟨20, 1354, f⟩ junk = .ok out ∧
      modis1kmTo500m (⟨20, 1354, fun i j => if i = 7 ∧ j = 7 then v else f i j⟩ : Arr2 α)
        ⟨20, 1354, f⟩ ⟨20, 1354, f⟩ junk = .ok out' ∧
      out.1.cell 3 3 = out'.1.cell 3 3 ∧ out.2.cell 3 3 = out'.2.cell 3 3 := by
  refine C29_locality .km1to500 2 2 (⟨20, 1354, f⟩ : Arr2 α) ⟨20, 1354, f⟩ ⟨20, 1354, f⟩
    ⟨20, 1354, fun i j => if i = 7 ∧ j = 7 then v else f i j⟩ ⟨20, 1354, f⟩ ⟨20, 1354, f⟩
    ⟨rfl, rfl, rfl, rfl, rfl, rfl⟩ ⟨rfl, rfl, rfl, rfl, rfl, rfl⟩
    rfl junk junk 3 3 (show 3 < 20 * 2 by omega) (show 3 < 20 * 2 by omega) (show 3 < 2708 by omega) ?_ ?_
  · intro i j hi hj
    refine ⟨?_, rfl⟩
    have : ¬ (i = 7 ∧ j = 7) := by
      have : tieRow .km1to500 1354 3 = 1 := by decide
      rintro ⟨rfl, rfl⟩
      simp only [this] at hi
      omega
    simp only [if_neg this]
  · intro j _; rfl

/-! ## C39 -/

/-- **C39, negation**: 1 km → 500 m on numpy arrays whose number of rows is not a whole number of scans (here
`10 * n + m`, `0 < m < 10`, any `n`) does not raise, and the rows after the last whole scan are the uninitialised
memory of the result arrays.  The same holds for every conversion and remainder. -/
theorem C39_negation (c : Conv) (n m : Nat) (hm0 : 0 < m) (hm : m < c.scanRows) (lon lat satz : Arr2 α)
    (hw : c.WidthOk lon.cols) (h1 : lon.rows = n * c.scanRows + m)
    (h2 : lat.rows = n * c.scanRows + m ∧ lat.cols = lon.cols)
    (h3 : satz.rows = n * c.scanRows + m ∧ satz.cols = lon.cols) (junk : Nat → Nat → Nat → Nat → α) :
    ∃ out, c.run lon lat satz junk = .ok out ∧ out.1.rows = (n * c.scanRows + m) * c.factor ∧
      n * c.scanRows * c.factor < out.1.rows ∧
      ∀ r k, n * c.scanRows * c.factor ≤ r → r < out.1.rows → k < c.outCols →
        out.1.cell r k = junk 8 0 r k ∧ out.2.cell r k = junk 9 0 r k := by
  have hcw := c.cfg_width hw
  obtain ⟨out, e, p1, p2⟩ := interpolateCfg_rem (c.cfg_geometry hw) (lon := lon) (lat := lat) (satz := satz)
    (n := n) (m := m) (by rw [c.cfg_len]; exact hm) ⟨by rw [c.cfg_len, h1], hcw.symm⟩
    ⟨by rw [c.cfg_len, h2.1], by rw [hcw, h2.2]⟩ ⟨by rw [c.cfg_len, h3.1], by rw [hcw, h3.2]⟩ junk
  rw [c.cfg_len, c.cfg_f, c.cfg_fineWidth, h3.1] at p1 p2
  have hf : 0 < c.factor := by cases c <;> decide
  refine ⟨out, by rw [c.run_eq _ _ _ _ hw, e], p1.rows, ?_, ?_⟩
  · rw [p1.rows]; exact Nat.mul_lt_mul_of_pos_right (by omega) hf
  · intro r k hr hr' hk
    rw [p1.rows] at hr'
    rw [p1.cell r k hr' hk trivial, p2.cell r k hr' hk trivial, if_neg (by omega), if_neg (by omega)]
    exact ⟨rfl, rfl⟩

example (f : Nat → Nat → α) (junk : Nat → Nat → Nat → Nat → α) :
    ∃ out, modis1kmTo500m (⟨15, 1354, f⟩ : Arr2 α) ⟨15, 1354, f⟩ ⟨15, 1354, f⟩ junk = .ok out ∧
      out.1.cell 20 0 = junk 8 0 20 0 := by
  obtain ⟨out, e, h1, _, h2⟩ := C39_negation .km1to500 1 5 (by decide) (by decide)
    (⟨15, 1354, f⟩ : Arr2 α) ⟨15, 1354, f⟩ ⟨15, 1354, f⟩ rfl rfl ⟨rfl, rfl⟩ ⟨rfl, rfl⟩ junk
  exact ⟨out, e, (h2 20 0 (by decide) (by rw [h1]; decide) (by decide)).1⟩

/-- **C39 (whole scans)**: rows left over after the last whole scan do not change the other rows: they are those of the arrays cut
after the last whole scan, whatever the initial memory of either run. -/
theorem C39_whole_scans (c : Conv) (n m : Nat) (hm : m < c.scanRows) (lon lat satz : Arr2 α)
    (hw : c.WidthOk lon.cols) (h1 : lon.rows = n * c.scanRows + m)
    (h2 : lat.rows = n * c.scanRows + m ∧ lat.cols = lon.cols)
    (h3 : satz.rows = n * c.scanRows + m ∧ satz.cols = lon.cols) (junk junk' : Nat → Nat → Nat → Nat → α) :
    ∃ out cut, c.run lon lat satz junk = .ok out ∧
      c.run (lon.rowSlice 0 (n * c.scanRows)) (lat.rowSlice 0 (n * c.scanRows)) (satz.rowSlice 0 (n * c.scanRows)) junk' = .ok cut ∧
      cut.1.rows = n * c.scanRows * c.factor ∧
      ∀ r k, r < n * c.scanRows * c.factor → k < c.outCols →
        out.1.cell r k = cut.1.cell r k ∧ out.2.cell r k = cut.2.cell r k := by
  have hcw := c.cfg_width hw
  have hl : 0 < c.scanRows := by omega
  obtain ⟨out, e, p1, p2⟩ := interpolateCfg_rem (c.cfg_geometry hw) (lon := lon) (lat := lat) (satz := satz)
    (n := n) (m := m) (by rw [c.cfg_len]; exact hm) ⟨by rw [c.cfg_len, h1], hcw.symm⟩
    ⟨by rw [c.cfg_len, h2.1], by rw [hcw, h2.2]⟩ ⟨by rw [c.cfg_len, h3.1], by rw [hcw, h3.2]⟩ junk
  have hs : ∀ a : Arr2 α, a.rows = n * c.scanRows + m → (a.rowSlice 0 (n * c.scanRows)).rows = n * c.scanRows := by
    intro a ha; simp only [Arr2.rowSlice, ha]; omega
  obtain ⟨cut, e', q1, q2⟩ := interpolateCfg_rem (c.cfg_geometry hw) (lon := lon.rowSlice 0 (n * c.scanRows))
    (lat := lat.rowSlice 0 (n * c.scanRows)) (satz := satz.rowSlice 0 (n * c.scanRows))
    (n := n) (m := 0) (by rw [c.cfg_len]; exact hl) ⟨by rw [c.cfg_len, hs _ h1, Nat.add_zero], hcw.symm⟩
    ⟨by rw [c.cfg_len, hs _ h2.1, Nat.add_zero], by rw [hcw]; exact h2.2⟩
    ⟨by rw [c.cfg_len, hs _ h3.1, Nat.add_zero], by rw [hcw]; exact h3.2⟩ junk'
  rw [c.cfg_len, c.cfg_f, c.cfg_fineWidth] at p1 p2 q1 q2
  rw [h3.1] at p1 p2
  rw [hs _ h3.1] at q1 q2
  refine ⟨out, cut, by rw [c.run_eq _ _ _ _ hw, e], by rw [c.run_eq _ _ _ _ (by exact hw)]; exact e', q1.rows, ?_⟩
  intro r k hr hk
  have hr' : r < (n * c.scanRows + m) * c.factor := lt_of_lt_of_le hr (Nat.mul_le_mul_right _ (by omega))
  rw [p1.cell r k hr' hk trivial, p2.cell r k hr' hk trivial, q1.cell r k hr hk trivial, q2.cell r k hr hk trivial,
    if_pos hr, if_pos hr, if_pos hr, if_pos hr]
  simp only [Arr2.rowSlice, Nat.zero_add, and_self]

/-- one scan and half of another -/
example (f : Nat → Nat → α) (junk junk' : Nat → Nat → Nat → Nat → α) :=
  C39_whole_scans .km1to500 1 5 (by decide) (⟨15, 1354, f⟩ : Arr2 α) ⟨15, 1354, f⟩ ⟨15, 1354, f⟩ rfl rfl ⟨rfl, rfl⟩ ⟨rfl, rfl⟩ junk junk'

/-! ## C35 -/

/-- **C35 (partial)**: 5 km inputs of a width other than 0, 270, 271 are refused.  Missing part of C35: an empty
width is accepted, and 1 km widths are not checked (`C35_negation_wide`, `C35_negation_empty`). -/
theorem C35_width_5km_partial (lon lat satz : Arr2 α) (junk : Nat → Nat → Nat → Nat → α)
    (h : lon.cols ≠ 0 ∧ lon.cols ≠ 270 ∧ lon.cols ≠ 271) :
    modis5kmTo1km lon lat satz junk = .error .notImplemented ∧
    modis5kmTo500m lon lat satz junk = .error .notImplemented ∧
    modis5kmTo250m lon lat satz junk = .error .notImplemented := by
  obtain ⟨h1, h2, h3⟩ := h
  simp [modis5kmTo1km, modis5kmTo500m, modis5kmTo250m, interpolate, h1, h2, h3]

example (f g h : Nat → Nat → α) (junk : Nat → Nat → Nat → Nat → α) :
    modis5kmTo500m (⟨4, 1354, f⟩ : Arr2 α) ⟨4, 271, g⟩ ⟨4, 271, h⟩ junk = .error .notImplemented :=
  (C35_width_5km_partial _ _ _ junk (by simp)).2.1

/-- **C35, negation (1 km, wide)**: with longitudes and latitudes wider than 1354 columns the 1 km conversions write
outside the work array `coarse_xyz` instead of raising. -/
theorem C35_negation_wide (c : Conv) (hc : c = .km1to500 ∨ c = .km1to250) (n : Nat) (hn : 0 < n)
    (lon lat satz : Arr2 α) (h1 : lon.rows = n * 10) (h2 : lat.rows = n * 10) (h3 : satz.rows = n * 10)
    (hw : 1354 < lon.cols) (hw2 : lat.cols = lon.cols) (hw3 : satz.cols = 1354)
    (junk : Nat → Nat → Nat → Nat → α) :
    c.run lon lat satz junk = .error .ub := by
  have hrun : c.run lon lat satz junk = interpolateCfg (c.cfg lon.cols) lon lat satz junk := by
    rcases hc with rfl | rfl <;> rfl
  have hg : Geometry (c.cfg lon.cols) := by
    rcases hc with rfl | rfl
    · exact Geometry.km1 2 (by omega)
    · exact Geometry.km1 4 (by omega)
  have hlen : (c.cfg lon.cols).len = 10 := by rcases hc with rfl | rfl <;> rfl
  have hwid : (c.cfg lon.cols).width = 1354 := by rcases hc with rfl | rfl <;> rfl
  set cfg := c.cfg lon.cols with hcfg
  rw [hrun]
  unfold interpolateCfg
  rw [if_neg (geom_run hg)]
  have hscan : satz.rows / cfg.len = n := by rw [h3, hlen]; omega
  have hshape : Shaped cfg (initBufs cfg satz.rows junk) :=
    ⟨⟨rfl, rfl⟩, ⟨rfl, rfl⟩, ⟨rfl, rfl⟩, ⟨rfl, rfl⟩, ⟨rfl, rfl⟩, ⟨rfl, rfl⟩, ⟨rfl, rfl, rfl⟩, ⟨rfl, rfl, rfl⟩⟩
  have hslice : ∀ a : Arr2 α, a.rows = n * 10 → (a.rowSlice (0 * cfg.len) ((0 + 1) * cfg.len)).rows = 10 := by
    intro a ha
    simp only [Arr2.rowSlice, ha, hlen]; omega
  have hstep : scanStep cfg lon lat satz (getCoords cfg).1 (getCoords cfg).2 0 (initBufs cfg satz.rows junk)
      = .error .ub := by
    obtain ⟨b1, e1, sh1, -, -, -, -⟩ := getAtrackAscan_ok hg
      (satz := satz.rowSlice (0 * cfg.len) ((0 + 1) * cfg.len)) (by rw [hslice _ h3, hlen])
      (by rw [hwid]; exact hw3) hshape
    have hbad : lonlat2xyzArr (lon.rowSlice (0 * cfg.len) ((0 + 1) * cfg.len))
        (lat.rowSlice (0 * cfg.len) ((0 + 1) * cfg.len)) b1.xyzCoarse = .error .ub := by
      unfold lonlat2xyzArr loop2
      have hlr := hslice lon h1
      have hlar := hslice lat h2
      have hlc : (lon.rowSlice (0 * cfg.len) ((0 + 1) * cfg.len)).cols = lon.cols := rfl
      have hlac : (lat.rowSlice (0 * cfg.len) ((0 + 1) * cfg.len)).cols = lon.cols := hw2
      refine loop_error (P := fun _ (x : Arr3 α) => x.rows = 10 ∧ x.cols = 1354 ∧ x.depth = 3) 0 (by omega)
        ⟨by rw [sh1.xc.1, hlen], by rw [sh1.xc.2.1, hwid], sh1.xc.2.2⟩ (fun i s hi => by omega) ?_
      intro x hx
      refine loop_error (P := fun _ (x : Arr3 α) => x.rows = 10 ∧ x.cols = 1354 ∧ x.depth = 3) 1354 (by omega)
        hx ?_ ?_
      · intro j x hj ⟨x1, x2, x3⟩
        beta_reduce
        rw [rd_bind (by omega) (by omega), rd_bind (by omega) (by omega)]
        obtain ⟨x', e, p⟩ := arr3_wr3 (xyz := x) (R := 10) (C := 1354) (S := fun _ _ _ => False)
          (F := fun _ _ k => comp (Geo.cyLonlat2xyz Geo.earthRadius
            ((lon.rowSlice (0 * cfg.len) ((0 + 1) * cfg.len)).cell 0 j)
            ((lat.rowSlice (0 * cfg.len) ((0 + 1) * cfg.len)).cell 0 j)) k)
          ⟨x1, x2, x3, fun _ _ _ _ _ _ h => h.elim⟩ (i := 0) (j := j) (by omega) (by omega) (fun _ _ => rfl)
        exact ⟨x', e, p.rows, p.cols, p.depth⟩
      · intro x ⟨x1, x2, x3⟩
        beta_reduce
        rw [rd_bind (by omega) (by omega), rd_bind (by omega) (by omega)]
        simp only [Arr3.wr, x1, x2, x3, bind, Except.bind]
        rw [if_neg (by omega)]
    unfold scanStep
    simp only [bind, Except.bind, e1, hbad]
  have hloop : loop n (scanStep cfg lon lat satz (getCoords cfg).1 (getCoords cfg).2) (initBufs cfg satz.rows junk)
      = .error .ub :=
    loop_error (P := fun _ b => b = initBufs cfg satz.rows junk) 0 hn rfl
      (fun i s hi => by omega) (fun s hs => by rw [hs]; exact hstep)
  simp only [hscan, hloop, bind, Except.bind]

example (f : Nat → Nat → α) (junk : Nat → Nat → Nat → Nat → α) :
    modis1kmTo250m (⟨10, 2000, f⟩ : Arr2 α) ⟨10, 2000, f⟩ ⟨10, 1354, f⟩ junk = .error .ub :=
  C35_negation_wide .km1to250 (Or.inr rfl) 1 (by decide) _ _ _ rfl rfl rfl (show 1354 < 2000 by omega) rfl rfl junk

/-- **C35, negation (missing columns)**: with too few longitude and latitude columns (1 km input narrower than 1354,
or 5 km input with no column at all) and a full zenith angle array, one scan is converted without an error, and the
position of every tie point in a missing column is whatever was in memory (`junk 6`): the pixels at the right edge do
not depend on the input longitudes and latitudes at all. -/
theorem C35_negation_narrow (c : Conv) (lon lat satz : Arr2 α)
    (hw : ((c = .km1to500 ∨ c = .km1to250) ∧ lon.cols ≤ 1352) ∨
      (¬ (c = .km1to500 ∨ c = .km1to250) ∧ lon.cols = 0))
    (h1 : lon.rows = c.scanRows) (h2 : lat.rows = c.scanRows ∧ lat.cols = lon.cols)
    (h3 : satz.rows = c.scanRows ∧ satz.cols = (c.cfg 271).width) (junk : Nat → Nat → Nat → Nat → α) :
    ∃ out, c.run lon lat satz junk = .ok out ∧ out.1.rows = c.scanRows * c.factor ∧ out.1.cols = c.outCols ∧
      ∀ r, r < c.scanRows * c.factor →
        (out.1.cell r (c.outCols - 1), out.2.cell r (c.outCols - 1))
          = scanPixel (c.cfg 271) (junk 6) satz.cell 0 r (c.outCols - 1) := by
  have hg : Geometry (c.cfg 271) := by
    cases c with
    | km1to500 => exact Geometry.km1 2 (by omega)
    | km1to250 => exact Geometry.km1 4 (by omega)
    | km5to1 => exact Geometry.km5 1 271 (by omega) (Or.inr rfl)
    | km5to500 => exact Geometry.km5 2 271 (by omega) (Or.inr rfl)
    | km5to250 => exact Geometry.km5 4 271 (by omega) (Or.inr rfl)
  have hrun : c.run lon lat satz junk = interpolateCfg (c.cfg 271) lon lat satz junk := by
    cases c with
    | km1to500 => rfl
    | km1to250 => rfl
    | km5to1 => simp at hw; simp [Conv.run, modis5kmTo1km, interpolate, mkCfg, Conv.cfg, hw, bind, Except.bind]
    | km5to500 => simp at hw; simp [Conv.run, modis5kmTo500m, interpolate, mkCfg, Conv.cfg, hw, bind, Except.bind]
    | km5to250 => simp at hw; simp [Conv.run, modis5kmTo250m, interpolate, mkCfg, Conv.cfg, hw, bind, Except.bind]
  have hle : lon.cols ≤ (c.cfg 271).width := by
    cases c <;> simp at hw <;> simp only [Conv.cfg] <;> omega
  have hcell : lon.cols ≤ cellCol (c.cfg 271) (c.outCols - 1) := by
    cases c <;> simp at hw <;> simp [Conv.cfg, Conv.outCols, cellCol, hw] 
  obtain ⟨out, e, p1, p2⟩ := interpolateCfg_narrow hg (lon := lon) (lat := lat) (satz := satz)
    ⟨by rw [c.cfg_len, h1], hle⟩ ⟨by rw [c.cfg_len, h2.1], h2.2⟩ ⟨by rw [c.cfg_len, h3.1], h3.2⟩ junk
  rw [c.cfg_len, c.cfg_f, c.cfg_fineWidth] at p1 p2
  refine ⟨out, hrun.trans e, p1.rows, p1.cols, fun r hr => ?_⟩
  have hc : c.outCols - 1 < c.outCols := by cases c <;> decide
  rw [p1.cell r _ hr hc trivial, p2.cell r _ hr hc trivial, Prod.mk.eta]
  have k1 : ¬ (cellCol (c.cfg 271) (c.outCols - 1) < lon.cols) := by omega
  have k2 : ¬ (cellCol (c.cfg 271) (c.outCols - 1) + 1 < lon.cols) := by omega
  simp only [scanPixel, fineXyz, if_neg k1, if_neg k2]

example (f g h : Nat → Nat → α) (junk : Nat → Nat → Nat → Nat → α) :
    ∃ out, modis1kmTo500m (⟨10, 677, f⟩ : Arr2 α) ⟨10, 677, g⟩ ⟨10, 1354, h⟩ junk = .ok out ∧
      (out.1.cell 0 2707, out.2.cell 0 2707)
        = scanPixel ⟨10, 1354, 1, 2, 2708, 4⟩ (junk 6) h 0 0 2707 := by
  obtain ⟨out, e, _, _, p⟩ := C35_negation_narrow .km1to500 (⟨10, 677, f⟩ : Arr2 α) ⟨10, 677, g⟩ ⟨10, 1354, h⟩
    (Or.inl ⟨Or.inl rfl, show 677 ≤ 1352 by omega⟩) rfl ⟨rfl, rfl⟩ ⟨rfl, rfl⟩ junk
  exact ⟨out, e, p 0 (by decide)⟩

end Verif.Props
