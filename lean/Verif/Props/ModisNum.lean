import Verif.Proofs.ModisNum
import Verif.Props.Modis
import Verif.Props.Geo

/-!
# C31–C34: geometry of the satellite-angle MODIS interpolation (exact arithmetic `FP ℝ`)
-/

namespace Verif.Props
open Verif Real FP Verif.Geo Verif.Modis Verif.Spec.Modis

/-! ## C31 -/

/-- Where the code places fine row `r` of a scan, in tie rows of the scan: index of the cell plus the fractional
coordinate `s_t = y / f` (_modis_interpolator.pyx:342). -/
noncomputable def rowPos (c : Conv) (w r : Nat) : FP ℝ :=
  val (cellRow (c.cfg w) r : ℝ) + (getCoords (c.cfg w)).2.cell r / Arith.ofInt (c.cfg w).f

/-- Where the code places fine column `k`, in tie columns: index of the cell plus `s_s = x / f`
(_modis_interpolator.pyx:341). -/
noncomputable def colPos (c : Conv) (w k : Nat) : FP ℝ :=
  val (cellCol (c.cfg w) k : ℝ) + (getCoords (c.cfg w)).1.cell k / Arith.ofInt (c.cfg w).f

private def y1 (f n : Nat) (i : Nat) : ℤ :=
  if i < f / 2 then (i : ℤ) - (f / 2 : ℕ)
  else if n - f / 2 ≤ i then (f : ℤ) + ((f / 2 : ℕ) - ((n : ℤ) - i))
  else ((i + f / 2) % f : ℕ)

private theorem coordY1km_val (cfg : Cfg) (i : Nat) :
    (coordY1km cfg i : FP ℝ) = val ((y1 cfg.f (cfg.len * cfg.f) i : ℝ) + 1 / 2) := by
  unfold coordY1km y1
  simp only []
  split
  · simp only [ofInt_eq, lit_eq, val_add, val_sub]; congr 1; push_cast; ring
  · split
    · simp only [ofInt_eq, lit_eq, val_add]; congr 1; push_cast; ring
    · simp only [ofInt_eq, lit_eq, val_add]; congr 1; push_cast; ring

private def x1 (f w i : Nat) : ℤ := if w - f ≤ i then ((f + (i - (w - f)) : ℕ) : ℤ) else ((i % f : ℕ) : ℤ)

private theorem coordX1km_val (cfg : Cfg) (i : Nat) :
    (coordX1km cfg i : FP ℝ) = val (x1 cfg.f cfg.fineWidth i : ℝ) := by
  unfold coordX1km x1
  split <;> simp only [ofInt_eq]

private def x5 (f width w i : Nat) : ℤ :=
  if width = 271 then
    if i + 1 = w then 6 else if i + 2 = w then 5 else if i = 1 then -1 else if i = 0 then -2
    else ((i : ℤ) - 2) % (f : ℤ)
  else
    if w ≤ i + 7 ∧ i < w then ((i + 12 : ℕ) : ℤ) - w else if i = 1 then -1 else if i = 0 then -2
    else ((i : ℤ) - 2) % (f : ℤ)

private theorem coordX5km_val (cfg : Cfg) (i : Nat) :
    (coordX5km cfg i : FP ℝ) = val (x5 cfg.f cfg.width cfg.fineWidth i : ℝ) := by
  unfold coordX5km x5
  simp only []
  split_ifs <;> simp

private theorem pos_val {q f : ℕ} {x : ℝ} {v : ℝ} (hf : (f : ℝ) ≠ 0) (h : (f : ℝ) * q + x = f * v) :
    (val (q : ℝ) + val x / Arith.ofInt (f : ℤ) : FP ℝ) = val v := by
  rw [ofInt_eq, val_div_of_ne _ (by exact_mod_cast hf), val_add]
  congr 1
  push_cast
  field_simp
  linarith

/-- **C31 (rows, 1 km input)** -/
theorem C31_rows_1km_partial (c : Conv) (hc : c = .km1to500 ∨ c = .km1to250) (w r : Nat)
    (hr : r < 10 * c.factor) :
    rowPos c w r = val (((r : ℝ) + 1 / 2) / (c.factor : ℝ) - 1 / 2) := by
  have key : ((c.factor : ℤ) * (cellRow (c.cfg w) r : ℤ) + y1 c.factor (10 * c.factor) r)
      = (r : ℤ) - (c.factor / 2 : ℕ) := by
    rcases hc with rfl | rfl <;>
    · simp only [Conv.factor, Conv.cfg, cellRow, y1, if_true] at hr ⊢
      split_ifs <;> omega
  have hcell : rowPos c w r = val (cellRow (c.cfg w) r : ℝ)
      + val ((y1 c.factor (10 * c.factor) r : ℝ) + 1 / 2) / Arith.ofInt (c.factor : ℤ) := by
    rcases hc with rfl | rfl <;> (unfold rowPos; simp only [Conv.cfg, getCoords, if_true]; rw [coordY1km_val]; rfl)
  have hf : (c.factor : ℝ) ≠ 0 := by rcases hc with rfl | rfl <;> norm_num [Conv.factor]
  rw [hcell]
  apply pos_val hf
  have hk : (c.factor : ℝ) * (cellRow (c.cfg w) r : ℝ) + (y1 c.factor (10 * c.factor) r : ℝ)
      = (r : ℝ) - ((c.factor / 2 : ℕ) : ℝ) := by exact_mod_cast key
  have h2 : ((c.factor / 2 : ℕ) : ℝ) = (c.factor : ℝ) / 2 := by
    rcases hc with rfl | rfl <;> norm_num [Conv.factor]
  rw [h2] at hk
  field_simp
  linarith

example : rowPos .km1to250 1354 39 = val (9 + 3 / 8) := by
  rw [C31_rows_1km_partial _ (Or.inr rfl) _ _ (by decide)]; norm_num [Conv.factor]

/-- **C31 (columns, 1 km input)** -/
theorem C31_cols_1km_partial (c : Conv) (hc : c = .km1to500 ∨ c = .km1to250) (w k : Nat) (hk : k < c.outCols) :
    colPos c w k = val ((k : ℝ) / (c.factor : ℝ)) := by
  have key : ((c.factor : ℤ) * (cellCol (c.cfg w) k : ℤ) + x1 c.factor c.outCols k) = (k : ℤ) := by
    rcases hc with rfl | rfl <;>
    · simp only [Conv.factor, Conv.cfg, Conv.outCols, cellCol, x1, if_true] at hk ⊢
      split_ifs <;> omega
  have hcell : colPos c w k = val (cellCol (c.cfg w) k : ℝ)
      + val (x1 c.factor c.outCols k : ℝ) / Arith.ofInt (c.factor : ℤ) := by
    rcases hc with rfl | rfl <;> (unfold colPos; simp only [Conv.cfg, getCoords, if_true]; rw [coordX1km_val]; rfl)
  have hf : (c.factor : ℝ) ≠ 0 := by rcases hc with rfl | rfl <;> norm_num [Conv.factor]
  rw [hcell]
  apply pos_val hf
  have hk : (c.factor : ℝ) * (cellCol (c.cfg w) k : ℝ) + (x1 c.factor c.outCols k : ℝ) = (k : ℝ) := by
    exact_mod_cast key
  rw [hk]; field_simp

example : colPos .km1to500 1354 2707 = val (1353 + 1 / 2) := by
  rw [C31_cols_1km_partial _ (Or.inl rfl) _ _ (by decide)]; norm_num [Conv.factor]

private theorem rowPos_5km (c : Conv) (hc : ¬ (c = .km1to500 ∨ c = .km1to250)) (w r : Nat) :
    rowPos c w r = val (((r : ℝ) - 2) / (c.factor : ℝ)) := by
  have hcell : rowPos c w r = val ((0 : ℕ) : ℝ) + val (((r : ℤ) - 2 : ℤ) : ℝ) / Arith.ofInt (c.factor : ℤ) := by
    cases c <;> simp at hc <;>
      (unfold rowPos; simp only [Conv.cfg, getCoords, cellRow, show ¬ ((2:Nat) = 10) by omega, if_false]; rfl)
  have hf : (c.factor : ℝ) ≠ 0 := by cases c <;> norm_num [Conv.factor]
  rw [hcell]
  apply pos_val hf
  push_cast; field_simp; ring

private theorem colPos_5km (c : Conv) (hc : ¬ (c = .km1to500 ∨ c = .km1to250)) (w k : Nat) :
    colPos c w k = val (cellCol (c.cfg w) k : ℝ)
      + val (x5 c.factor w c.outCols k : ℝ) / Arith.ofInt (c.factor : ℤ) := by
  cases c <;> simp at hc <;>
    (unfold colPos; simp only [Conv.cfg, getCoords, show ¬ ((2:Nat) = 10) by omega, if_false]
     rw [coordX5km_val]; rfl)

/-- **C31 (rows and columns, 5 km → 1 km)**.  `C31_*_partial` cover 1km→500m, 1km→250m and 5km→1km; the statement is
false for 5km→500m and 5km→250m (`C31_negation_rows`, `C31_negation_cols`). -/
theorem C31_5km_to_1km_partial (w : Nat) (hw : w = 270 ∨ w = 271) :
    (∀ r, r < 10 → rowPos .km5to1 w r = val (((r : ℝ) - 2) / 5)) ∧
    (∀ k, k < 1354 → colPos .km5to1 w k = val (((k : ℝ) - 2) / 5)) := by
  constructor
  · intro r _
    rw [rowPos_5km _ (by simp)]; norm_num [Conv.factor]
  · intro k hk
    have key : ((5 : ℕ) : ℤ) * (cellCol (Conv.km5to1.cfg w) k : ℤ) + x5 5 w 1354 k = (k : ℤ) - 2 := by
      rcases hw with rfl | rfl <;>
      · simp only [Conv.cfg, cellCol, x5, show ¬ ((2:Nat) = 10) by omega, if_false]
        split_ifs <;> omega
    rw [colPos_5km _ (by simp)]
    have h5 : (((5 : ℕ) : ℝ)) ≠ 0 := by norm_num
    apply pos_val (f := 5) h5
    have hk : ((5 : ℕ) : ℝ) * (cellCol (Conv.km5to1.cfg w) k : ℝ) + (x5 5 w 1354 k : ℝ) = (k : ℝ) - 2 := by
      exact_mod_cast key
    simp only [Conv.factor, Conv.outCols]
    rw [hk]; norm_num; ring

example : colPos .km5to1 270 1353 = val (269 + 6 / 5) := by
  rw [(C31_5km_to_1km_partial 270 (Or.inl rfl)).2 1353 (by norm_num)]; norm_num

/-- **C31, negation (rows, 5km → 500m/250m)**: the code places fine row `r` at `(r - 2) / f`, which is not the
position `(r + 1/2) / f - 1/2` of its centre for any row. -/
theorem C31_negation_rows (c : Conv) (hc : c = .km5to500 ∨ c = .km5to250) (w r : Nat) :
    rowPos c w r = val (((r : ℝ) - 2) / (c.factor : ℝ)) ∧
    rowPos c w r ≠ val (((r : ℝ) + 1 / 2) / (c.factor : ℝ) - 1 / 2) := by
  have h := rowPos_5km c (by rcases hc with rfl | rfl <;> simp) w r
  refine ⟨h, ?_⟩
  rw [h]
  intro h2
  rw [val.injEq] at h2
  rcases hc with rfl | rfl <;>
  · simp only [Conv.factor] at h2
    push_cast at h2
    field_simp at h2
    linarith

/-- **C31, negation (columns, 5km → 500m/250m)**: the positions of the fine columns are not even increasing: a column
is placed at 0.9 (0.95) and the next one at 0. -/
theorem C31_negation_cols (w : Nat) (hw : w = 270 ∨ w = 271) :
    (colPos .km5to500 w 11 = val (9 / 10) ∧ colPos .km5to500 w 12 = val 0) ∧
    (colPos .km5to250 w 21 = val (19 / 20) ∧ colPos .km5to250 w 22 = val 0) := by
  refine ⟨⟨?_, ?_⟩, ?_, ?_⟩ <;>
  · rw [colPos_5km _ (by simp)]
    rcases hw with rfl | rfl <;> norm_num [cellCol, x5, Conv.cfg, Conv.factor, Conv.outCols]

/-! ## C32 -/

/-- Round trip through the Cython conversion (C01 and C06). -/
theorem cy_roundtrip (lon lat : ℝ) (h1 : -180 < lon) (h2 : lon < 180) (h3 : -90 < lat) (h4 : lat < 90) :
    cyXyz2lonlat earthRadius cyThr true (cyLonlat2xyz earthRadius (val lon) (val lat))
      = ((val lon, val lat) : FP ℝ × FP ℝ) := by
  rw [earthRadius_val, cyThr_eq, defaultThr_val, cyLonlat2xyz_eq]
  have h := C01_roundtrip_partial 6370997 (4 / 5) lon lat true (by norm_num) h1 h2 h3 h4
  rw [lonlat2xyz_val] at h ⊢
  rw [xyz2lonlat_val _ _ _ _ _ _ (by norm_num)] at h
  rw [cyXyz2lonlat_val _ _ _ _ _ _ (by norm_num), h]

private theorem tie_comp (lon lat : Nat → Nat → ℝ) (i j k : Nat) :
    ∃ v : ℝ, ties (fun i j => (val (lon i j) : FP ℝ)) (fun i j => val (lat i j)) i j k = val v := by
  unfold ties tieXyz
  rw [earthRadius_val]
  exact comp_pt _ _ _ k

private theorem scanPixel_of_eq {cfg : Cfg} {X : Nat → Nat → Nat → FP ℝ} {satz : Nat → Nat → FP ℝ} {i0 r c : Nat}
    {lon lat : ℝ} (h1 : -180 < lon) (h2 : lon < 180) (h3 : -90 < lat) (h4 : lat < 90)
    (h : ∀ k, k < 3 → fineXyz cfg X satz i0 r c k
      = comp (cyLonlat2xyz earthRadius (val lon) (val lat) : FP ℝ × FP ℝ × FP ℝ) k) :
    scanPixel cfg X satz i0 r c = (val lon, val lat) := by
  unfold scanPixel
  rw [h 0 (by omega), h 1 (by omega), h 2 (by omega)]
  simp only [comp, if_true, if_false, show ¬ ((1:Nat) = 0) by omega, show ¬ ((2:Nat) = 0) by omega,
    show ¬ ((2:Nat) = 1) by omega]
  exact cy_roundtrip lon lat h1 h2 h3 h4

/-- **C32**: `modis_5km_to_1km` gives back every tie point at rows 2, 7, 12, ... and columns 2, 7, ...: for whole scans
with 270 or 271 columns, any zenith angles, any real longitudes and latitudes; at each tie point strictly inside the
ranges (off the axis and the 180-degree meridian) whose cell has numeric expansion coefficients. -/
theorem C32_tie_points (n w : Nat) (hw : w = 270 ∨ w = 271) (lon lat : Nat → Nat → ℝ) (satz : Nat → Nat → FP ℝ)
    (junk : Nat → Nat → Nat → Nat → FP ℝ) :
    ∃ out, modis5kmTo1km ⟨n * 2, w, fun i j => val (lon i j)⟩ ⟨n * 2, w, fun i j => val (lat i j)⟩
        ⟨n * 2, w, satz⟩ junk = .ok out ∧
      ∀ i j, i < n * 2 → j < w → -180 < lon i j → lon i j < 180 → -90 < lat i j → lat i j < 90 →
        (let ea := expansionAlignment 5 (satz (i / 2 * 2) (min j (w - 2))) (satz (i / 2 * 2) (min j (w - 2) + 1))
         IsNum ea.1 ∧ IsNum ea.2) →
        out.1.cell (5 * i + 2) (5 * j + 2) = val (lon i j) ∧ out.2.cell (5 * i + 2) (5 * j + 2) = val (lat i j) := by
  obtain ⟨out, e, p1, p2⟩ := run_pixel .km5to1 (n := n) (lon := ⟨n * 2, w, fun i j => (val (lon i j) : FP ℝ)⟩)
    (lat := ⟨n * 2, w, fun i j => val (lat i j)⟩) (satz := ⟨n * 2, w, satz⟩) ⟨hw, rfl, rfl, rfl, rfl, rfl⟩ junk
  refine ⟨out, e, fun i j hi hj l1 l2 l3 l4 hnum => ?_⟩
  simp only [Conv.scanRows, Conv.factor, Conv.outCols] at p1 p2
  have hr : 5 * i + 2 < n * 2 * 5 := by omega
  have hc : 5 * j + 2 < 1354 := by omega
  rw [p1.cell _ _ hr hc trivial, p2.cell _ _ hr hc trivial]
  suffices h : pixel (Conv.km5to1.cfg w) (fun i j => (val (lon i j) : FP ℝ)) (fun i j => val (lat i j)) satz
      (5 * i + 2) (5 * j + 2) = (val (lon i j), val (lat i j)) by
    rw [h]; exact ⟨rfl, rfl⟩
  unfold pixel
  refine scanPixel_of_eq l1 l2 l3 l4 fun k _ => ?_
  simp only [Conv.cfg]
  rw [show (5 * i + 2) / (2 * 5) * 2 = i / 2 * 2 by omega,
    show (5 * i + 2) % (2 * 5) = 5 * (i % 2) + 2 by omega]
  -- position inside the cell
  have hcr : cellRow (Conv.km5to1.cfg w) (5 * (i % 2) + 2) = 0 := rfl
  have hcc : cellCol (Conv.km5to1.cfg w) (5 * j + 2) = min j (w - 2) := by
    simp only [cellCol, Conv.cfg, show ¬ ((2:Nat) = 10) by omega, if_false]
    rw [show (5 * j + 2 - 2) / 5 = j by omega]
  have hx : (getCoords (Conv.km5to1.cfg w)).1.cell (5 * j + 2) / Arith.ofInt ((5 : Nat) : Int)
      = (val ((j : ℝ) - (min j (w - 2) : ℕ)) : FP ℝ) := by
    have h := (C31_5km_to_1km_partial w hw).2 (5 * j + 2) hc
    rw [colPos_5km _ (by simp), hcc] at h
    have e1 : (getCoords (Conv.km5to1.cfg w)).1.cell (5 * j + 2)
        = (val (x5 5 w 1354 (5 * j + 2) : ℝ) : FP ℝ) := coordX5km_val _ _
    rw [e1]
    simp only [Conv.factor, Conv.outCols, ofInt_eq] at h ⊢
    rw [val_div_of_ne _ (by norm_num)] at h ⊢
    rw [val_add, val.injEq] at h
    congr 1
    push_cast at h ⊢
    linarith
  have hy : (getCoords (Conv.km5to1.cfg w)).2.cell (5 * (i % 2) + 2) / Arith.ofInt ((5 : Nat) : Int)
      = (val ((i % 2 : ℕ) : ℝ) : FP ℝ) := by
    have h := (C31_5km_to_1km_partial w hw).1 (5 * (i % 2) + 2) (by omega)
    unfold rowPos at h
    rw [hcr] at h
    have e1 : (getCoords (Conv.km5to1.cfg w)).2.cell (5 * (i % 2) + 2)
        = (val ((((5 * (i % 2) + 2 : ℕ) : ℤ) - 2 : ℤ) : ℝ) : FP ℝ) := rfl
    rw [e1, ofInt_eq, val_div_of_ne _ (by norm_num)]
    congr 1
    generalize i % 2 = a
    push_cast; ring
  obtain ⟨⟨ce, hce⟩, ca, hca⟩ := hnum
  have hs01 : ((j : ℝ) - (min j (w - 2) : ℕ)) = 0 ∨ ((j : ℝ) - (min j (w - 2) : ℕ)) = 1 := by
    rcases Nat.lt_or_ge (w - 2) j with h | h
    · right
      rw [Nat.min_eq_right h.le, show j = (w - 2) + 1 by omega]; push_cast; ring
    · left
      rw [Nat.min_eq_left h]; ring
  have ht01 : ((i % 2 : ℕ) : ℝ) = 0 ∨ ((i % 2 : ℕ) : ℝ) = 1 := by
    rcases Nat.mod_two_eq_zero_or_one i with h | h <;> rw [h] <;> simp
  have hts : trackScan (Conv.km5to1.cfg w) satz (i / 2 * 2) (5 * (i % 2) + 2) (5 * j + 2)
      = (val ((i % 2 : ℕ) : ℝ), val ((j : ℝ) - (min j (w - 2) : ℕ))) := by
    unfold trackScan atrackAscan
    simp only [hcr, hcc, Nat.add_zero]
    rw [show (Conv.km5to1.cfg w).perKm = 5 from rfl, show (Conv.km5to1.cfg w).f = 5 from rfl, hx, hy, hce, hca]
    simp only [one_eq, val_sub, val_mul, val_add]
    congr 2
    rcases hs01 with h | h <;> rcases ht01 with h' | h' <;> rw [h, h'] <;> ring
  show fineXyz (Conv.km5to1.cfg w) _ satz (i / 2 * 2) (5 * (i % 2) + 2) (5 * j + 2) k = _
  unfold fineXyz
  simp only [hts, hcr, hcc, Nat.add_zero]
  obtain ⟨va, ea⟩ := tie_comp lon lat (i / 2 * 2) (min j (w - 2)) k
  obtain ⟨vb, eb⟩ := tie_comp lon lat (i / 2 * 2) (min j (w - 2) + 1) k
  obtain ⟨vc, ec⟩ := tie_comp lon lat (i / 2 * 2 + 1) (min j (w - 2) + 1) k
  obtain ⟨vd, ed⟩ := tie_comp lon lat (i / 2 * 2 + 1) (min j (w - 2)) k
  rw [ea, eb, ec, ed, fineComponent_corner _ _ ht01 hs01]
  have target : comp (cyLonlat2xyz earthRadius (val (lon i j)) (val (lat i j)) : FP ℝ × FP ℝ × FP ℝ) k
      = ties (fun i j => (val (lon i j) : FP ℝ)) (fun i j => val (lat i j)) i j k := rfl
  rw [target]
  have hi2 : i = i / 2 * 2 + i % 2 := by omega
  have hi01 := Nat.mod_two_eq_zero_or_one i
  rcases Nat.lt_or_ge (w - 2) j with h | h
  · have hm : min j (w - 2) = w - 2 := Nat.min_eq_right h.le
    have hj' : j = w - 2 + 1 := by omega
    have hs : ((j : ℝ) - (min j (w - 2) : ℕ)) = 1 := by rw [hm, hj']; push_cast; ring
    rw [hs]
    rw [hm] at eb ec
    rcases hi01 with h0 | h0
    · rw [h0, ← eb, ← hj', show i / 2 * 2 = i by omega]; simp
    · rw [h0, ← ec, ← hj', show i / 2 * 2 + 1 = i by omega]; simp
  · have hm : min j (w - 2) = j := Nat.min_eq_left h
    have hs : ((j : ℝ) - (min j (w - 2) : ℕ)) = 0 := by rw [hm]; ring
    rw [hs]
    rw [hm] at ea ed
    rcases hi01 with h0 | h0
    · rw [h0, ← ea, show i / 2 * 2 = i by omega]; simp
    · rw [h0, ← ed, show i / 2 * 2 + 1 = i by omega]; simp

/-! ## C33 -/

/-- **C33**: if the four tie points of the cell of a pixel carry the same position (strictly inside the ranges), and
the zenith angles of the cell give numeric coefficients, the pixel gets exactly that position, for every conversion,
pixel, and whatever the other tie points and zenith angles are (numbers or not). -/
theorem C33_constant (c : Conv) (n : Nat) (lon lat satz : Arr2 (FP ℝ)) (h : ScanInput c n lon lat satz)
    (junk : Nat → Nat → Nat → Nat → FP ℝ) :
    ∃ out, c.run lon lat satz junk = .ok out ∧
      ∀ r k (lon0 lat0 : ℝ), r < n * c.scanRows * c.factor → k < c.outCols →
        -180 < lon0 → lon0 < 180 → -90 < lat0 → lat0 < 90 →
        (∀ i j, (i = tieRow c lon.cols r ∨ i = tieRow c lon.cols r + 1) →
          (j = tieCol c lon.cols k ∨ j = tieCol c lon.cols k + 1) →
          lon.cell i j = val lon0 ∧ lat.cell i j = val lat0) →
        (let ea := expansionAlignment (c.cfg lon.cols).perKm (satz.cell (tieRow c lon.cols r) (tieCol c lon.cols k))
            (satz.cell (tieRow c lon.cols r) (tieCol c lon.cols k + 1))
         IsNum ea.1 ∧ IsNum ea.2) →
        out.1.cell r k = val lon0 ∧ out.2.cell r k = val lat0 := by
  obtain ⟨out, e, p1, p2⟩ := run_pixel c h junk
  refine ⟨out, e, fun r k lon0 lat0 hr hk l1 l2 l3 l4 htie hnum => ?_⟩
  rw [p1.cell r k hr hk trivial, p2.cell r k hr hk trivial]
  suffices hp : pixel (c.cfg lon.cols) lon.cell lat.cell satz.cell r k = (val lon0, val lat0) by
    rw [hp]; exact ⟨rfl, rfl⟩
  simp only [tieRow, tieCol, ← c.cfg_len lon.cols, ← c.cfg_f lon.cols] at htie hnum
  unfold pixel
  refine scanPixel_of_eq l1 l2 l3 l4 fun q _ => ?_
  obtain ⟨⟨ce, hce⟩, ca, hca⟩ := hnum
  obtain ⟨a1, a2⟩ := htie _ _ (Or.inl rfl) (Or.inl rfl)
  obtain ⟨b1, b2⟩ := htie _ _ (Or.inl rfl) (Or.inr rfl)
  obtain ⟨c1, c2⟩ := htie _ _ (Or.inr rfl) (Or.inr rfl)
  obtain ⟨d1, d2⟩ := htie _ _ (Or.inr rfl) (Or.inl rfl)
  have hts : ∃ t s : ℝ, trackScan (c.cfg lon.cols) satz.cell
      (r / ((c.cfg lon.cols).len * (c.cfg lon.cols).f) * (c.cfg lon.cols).len)
      (r % ((c.cfg lon.cols).len * (c.cfg lon.cols).f)) k = (val t, val s) := by
    unfold trackScan atrackAscan
    have hf : (((c.cfg lon.cols).f : ℤ) : ℝ) ≠ 0 := by
      rw [c.cfg_f]; cases c <;> norm_num [Conv.factor]
    have hx : ∃ x : ℝ, (getCoords (c.cfg lon.cols)).1.cell k = (val x : FP ℝ) := by
      unfold getCoords; split
      · exact ⟨_, coordX1km_val _ _⟩
      · exact ⟨_, coordX5km_val _ _⟩
    have hy : ∃ y : ℝ, (getCoords (c.cfg lon.cols)).2.cell
        (r % ((c.cfg lon.cols).len * (c.cfg lon.cols).f)) = (val y : FP ℝ) := by
      unfold getCoords; split
      · exact ⟨_, coordY1km_val _ _⟩
      · exact ⟨_, rfl⟩
    obtain ⟨x, hx⟩ := hx
    obtain ⟨y, hy⟩ := hy
    simp only [hx, hy, hce, hca, ofInt_eq]
    rw [val_div_of_ne _ hf, val_div_of_ne _ hf]
    simp only [one_eq, val_sub, val_mul, val_add]
    exact ⟨_, _, rfl⟩
  obtain ⟨t, s, hts⟩ := hts
  unfold fineXyz
  simp only [hts, ties, tieXyz, a1, a2, b1, b2, c1, c2, d1, d2]
  obtain ⟨v, hv⟩ := comp_pt 6370997 lon0 lat0 q
  rw [← earthRadius_val] at hv
  rw [cyLonlat2xyz_eq, hv, fineComponent_same]

/-! ## C34 -/

/-- **C34 (partial)**: for zenith angles of at most 80 degrees in absolute value, not both zero, both coefficients are
numbers (1 km and 5 km; equal angles and angles symmetrical about nadir included).  Missing part of C34: two zero
angles, for which it is false (`C34_negation`). -/
theorem C34_coefficients_partial (w : Nat) (hw : w ≤ 100) (a b : ℝ) (ha : |a| ≤ 80) (hb : |b| ≤ 80)
    (h0 : ¬ (a = 0 ∧ b = 0)) :
    IsNum (expansionAlignment w (val a : FP ℝ) (val b)).1 ∧
    IsNum (expansionAlignment w (val a : FP ℝ) (val b)).2 :=
  expansionAlignment_isNum w hw ha hb h0

example : IsNum (expansionAlignment 5 (val 65 : FP ℝ) (val 65)).1 ∧ IsNum (expansionAlignment 5 (val 65 : FP ℝ) (val 65)).2 :=
  C34_coefficients_partial 5 (by norm_num) 65 65 (by norm_num [abs_le]) (by norm_num [abs_le]) (by norm_num)

example : IsNum (expansionAlignment 1 (val (1/2) : FP ℝ) (val (-1/2))).2 :=
  (C34_coefficients_partial 1 (by norm_num) _ _ (by norm_num [abs_le]) (by norm_num [abs_le]) (by norm_num)).2

/-- **C34, negation**: two adjacent zero zenith angles give no number (division by zero). -/
theorem C34_negation (w : Nat) : (expansionAlignment w (val 0 : FP ℝ) (val 0)).1 = bad ∧
    (expansionAlignment w (val 0 : FP ℝ) (val 0)).2 = bad := by
  have h0 : Spec.rad 0 = 0 := by simp [Spec.rad]
  unfold expansionAlignment
  have hd : ∀ x : FP ℝ, x / val 0 = bad := by intro x; cases x <;> simp
  simp only [toFloating_eq, cyDeg2rad_eq, deg2rad_val, h0, computePhi_val, phiR_zero, computeTheta, val_sub, eq_val, ofNat_eq, val_mul]
  simp [hd]

/-- C32 with the coefficients discharged by C34: zenith angles up to 80 degrees, no two adjacent ones both zero. -/
theorem C32_tie_points_satz (n w : Nat) (hw : w = 270 ∨ w = 271) (lon lat satz : Nat → Nat → ℝ)
    (hlon : ∀ i j, -180 < lon i j ∧ lon i j < 180) (hlat : ∀ i j, -90 < lat i j ∧ lat i j < 90)
    (hsatz : ∀ i j, |satz i j| ≤ 80) (hz : ∀ i j, ¬ (satz i j = 0 ∧ satz i (j + 1) = 0))
    (junk : Nat → Nat → Nat → Nat → FP ℝ) :
    ∃ out, modis5kmTo1km ⟨n * 2, w, fun i j => val (lon i j)⟩ ⟨n * 2, w, fun i j => val (lat i j)⟩
        ⟨n * 2, w, fun i j => val (satz i j)⟩ junk = .ok out ∧
      ∀ i j, i < n * 2 → j < w →
        out.1.cell (5 * i + 2) (5 * j + 2) = val (lon i j) ∧ out.2.cell (5 * i + 2) (5 * j + 2) = val (lat i j) := by
  obtain ⟨out, e, h⟩ := C32_tie_points n w hw lon lat (fun i j => val (satz i j)) junk
  exact ⟨out, e, fun i j hi hj => h i j hi hj (hlon i j).1 (hlon i j).2 (hlat i j).1 (hlat i j).2
    (C34_coefficients_partial 5 (by norm_num) _ _ (hsatz _ _) (hsatz _ _) (hz _ _))⟩

/-- a concrete swath meeting the hypotheses -/
example (junk : Nat → Nat → Nat → Nat → FP ℝ) :
    ∃ out, modis5kmTo1km ⟨3 * 2, 270, fun i j => val (100 + (i : ℝ) / 10 + (j : ℝ) / 10)⟩
        ⟨3 * 2, 270, fun i _ => val (60 - (i : ℝ) / 10)⟩ ⟨3 * 2, 270, fun _ _ => val 30⟩ junk = .ok out ∧
      out.1.cell 27 1347 = val (100 + ((5 : ℕ) : ℝ) / 10 + ((269 : ℕ) : ℝ) / 10) := by
  obtain ⟨out, e, h⟩ := C32_tie_points 3 270 (Or.inl rfl) (fun i j => 100 + (i : ℝ) / 10 + (j : ℝ) / 10)
    (fun i _ => 60 - (i : ℝ) / 10) (fun _ _ => val 30) junk
  exact ⟨out, e, (h 5 269 (by norm_num) (by norm_num) (by norm_num) (by norm_num) (by norm_num) (by norm_num)
    (C34_coefficients_partial 5 (by norm_num) 30 30 (by norm_num [abs_le]) (by norm_num [abs_le]) (by norm_num))).1⟩

/-- C33 has concrete instances: a constant field, zenith angle 30. -/
example (junk : Nat → Nat → Nat → Nat → FP ℝ) :
    ∃ out, modis1kmTo250m ⟨2 * 10, 1354, fun _ _ => val 17⟩ ⟨2 * 10, 1354, fun _ _ => val 83⟩
        ⟨2 * 10, 1354, fun _ _ => val 30⟩ junk = .ok out ∧ out.1.cell 79 5415 = val 17 := by
  obtain ⟨out, e, h⟩ := C33_constant .km1to250 2 (⟨2 * 10, 1354, fun _ _ => val 17⟩ : Arr2 (FP ℝ))
    ⟨2 * 10, 1354, fun _ _ => val 83⟩ ⟨2 * 10, 1354, fun _ _ => val 30⟩ ⟨rfl, rfl, rfl, rfl, rfl, rfl⟩ junk
  exact ⟨out, e, (h 79 5415 17 83 (by decide) (by decide) (by norm_num) (by norm_num) (by norm_num) (by norm_num)
    (fun _ _ _ _ => ⟨rfl, rfl⟩)
    (C34_coefficients_partial 1 (by norm_num) 30 30 (by norm_num [abs_le]) (by norm_num [abs_le]) (by norm_num))).1⟩

/-- **C35, negation (numerical)**: with too few 1 km columns the result really depends on the previous content of the
memory: two runs on the same input, with different memory, return the longitudes 10 and 20 for the same pixel. -/
theorem C35_negation_narrow_value :
    ∃ (lon lat satz : Arr2 (FP ℝ)) (junk junk' : Nat → Nat → Nat → Nat → FP ℝ) (out out' : Arr2 (FP ℝ) × Arr2 (FP ℝ)),
      lon.rows = 10 ∧ lon.cols = 677 ∧ modis1kmTo500m lon lat satz junk = .ok out ∧
      modis1kmTo500m lon lat satz junk' = .ok out' ∧
      out.1.cell 0 2707 = val 10 ∧ out'.1.cell 0 2707 = val 20 := by
  have key : ∀ l : ℝ, -180 < l → l < 180 →
      scanPixel ⟨10, 1354, 1, 2, 2708, 4⟩ (fun _ _ k => comp (cyLonlat2xyz earthRadius (val l) (val 0)) k)
        (fun _ _ => (val 30 : FP ℝ)) 0 0 2707 = (val l, val 0) := by
    intro l h1 h2
    refine scanPixel_of_eq h1 h2 (by norm_num) (by norm_num) fun q _ => ?_
    obtain ⟨⟨ce, hce⟩, ca, hca⟩ := C34_coefficients_partial 1 (by norm_num) 30 30
      (by norm_num [abs_le]) (by norm_num [abs_le]) (by norm_num)
    obtain ⟨v, hv⟩ := comp_pt 6370997 l 0 q
    rw [← earthRadius_val] at hv
    have hts : ∃ t s : ℝ, trackScan ⟨10, 1354, 1, 2, 2708, 4⟩ (fun _ _ => (val 30 : FP ℝ)) 0 0 2707
        = (val t, val s) := by
      unfold trackScan atrackAscan
      simp only [getCoords, if_true, toFloating_eq, coordX1km_val, coordY1km_val, hce, hca, ofInt_eq]
      rw [val_div_of_ne _ (by norm_num), val_div_of_ne _ (by norm_num)]
      simp only [one_eq, val_sub, val_mul, val_add]
      exact ⟨_, _, rfl⟩
    obtain ⟨t, s, hts⟩ := hts
    unfold fineXyz
    simp only [hts, cyLonlat2xyz_eq, hv, fineComponent_same]
  have run : ∀ l : ℝ, -180 < l → l < 180 → ∃ out,
      modis1kmTo500m ⟨10, 677, fun _ _ => val 0⟩ ⟨10, 677, fun _ _ => val 0⟩ ⟨10, 1354, fun _ _ => (val 30 : FP ℝ)⟩
        (fun _ _ _ k => comp (cyLonlat2xyz earthRadius (val l) (val 0)) k) = .ok out ∧ out.1.cell 0 2707 = val l := by
    intro l h1 h2
    obtain ⟨out, e, _, _, p⟩ := C35_negation_narrow .km1to500 (⟨10, 677, fun _ _ => val 0⟩ : Arr2 (FP ℝ))
      ⟨10, 677, fun _ _ => val 0⟩ ⟨10, 1354, fun _ _ => val 30⟩
      (Or.inl ⟨Or.inl rfl, show 677 ≤ 1352 by omega⟩) rfl ⟨rfl, rfl⟩ ⟨rfl, rfl⟩
      (fun _ _ _ k => comp (cyLonlat2xyz earthRadius (val l) (val 0)) k)
    refine ⟨out, e, ?_⟩
    have := p 0 (by decide)
    rw [show Conv.km1to500.cfg 271 = ⟨10, 1354, 1, 2, 2708, 4⟩ from rfl] at this
    rw [show Conv.km1to500.outCols - 1 = 2707 from rfl, key l h1 h2] at this
    exact (Prod.mk.inj this).1
  obtain ⟨o1, e1, p1⟩ := run 10 (by norm_num) (by norm_num)
  obtain ⟨o2, e2, p2⟩ := run 20 (by norm_num) (by norm_num)
  exact ⟨_, _, _, _, _, o1, o2, rfl, rfl, e1, e2, p1, p2⟩

/-- **C39, negation (numerical)**: 15 rows of 1 km data: two runs on the same input return different values. -/
theorem C39_negation_value :
    ∃ (lon lat satz : Arr2 (FP ℝ)) (junk junk' : Nat → Nat → Nat → Nat → FP ℝ) (out out' : Arr2 (FP ℝ) × Arr2 (FP ℝ)),
      lon.rows = 15 ∧ modis1kmTo500m lon lat satz junk = .ok out ∧ modis1kmTo500m lon lat satz junk' = .ok out' ∧
      out.1.cell 20 0 ≠ out'.1.cell 20 0 := by
  have run : ∀ l : ℝ, ∃ out,
      modis1kmTo500m ⟨15, 1354, fun _ _ => val 0⟩ ⟨15, 1354, fun _ _ => val 0⟩ ⟨15, 1354, fun _ _ => (val 30 : FP ℝ)⟩
        (fun _ _ _ _ => val l) = .ok out ∧ out.1.cell 20 0 = val l := by
    intro l
    obtain ⟨out, e, h1, _, h2⟩ := C39_negation .km1to500 1 5 (by decide) (by decide)
      (⟨15, 1354, fun _ _ => val 0⟩ : Arr2 (FP ℝ)) ⟨15, 1354, fun _ _ => val 0⟩ ⟨15, 1354, fun _ _ => val 30⟩
      rfl rfl ⟨rfl, rfl⟩ ⟨rfl, rfl⟩ (fun _ _ _ _ => val l)
    exact ⟨out, e, (h2 20 0 (by decide) (by rw [h1]; decide) (by decide)).1⟩
  obtain ⟨o1, e1, p1⟩ := run 1
  obtain ⟨o2, e2, p2⟩ := run 2
  exact ⟨_, _, _, _, _, o1, o2, rfl, e1, e2, by rw [p1, p2]; simp⟩

end Verif.Props
