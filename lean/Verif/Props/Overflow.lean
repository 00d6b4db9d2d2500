import Verif.Proofs.OvCoef
import Verif.Props.Modis
import Verif.Props.MxWeights

/-!
# C102: overflow does not happen

The theorems on rounded arithmetic are about numbers of any size.  Here every result that cannot be stored becomes an infinity (merged
with NaN), and the conversions and the zenith-angle MODIS interpolator are shown to give the same results.
-/

namespace Verif.Props
open Verif Verif.Modis Verif.Spec.Modis Verif.Geo Verif.Ov

section generic
variable {α : Type} [Trig α] {m : Approx α} {L : Limit m}

/-- **C102 (conversions)**: in any arithmetic with relative errors of at most a quarter that stores all numbers up to `10^37`: no step of the
numpy `lonlat2xyz` overflows for longitudes and latitudes up to `10^10` (degrees, or not a number), and no step of `xyz2lonlat` for positions up
to `10^18` metres. -/
theorem C102_conversions (hL : (10 : ℝ) ^ 37 ≤ L.bound) :
    (∀ lon lat : α, m.mag lon ≤ 10 ^ 10 → m.mag lat ≤ 10 ^ 10 →
      lonlat2xyz (earthRadius : Ov L) (mk lon) (mk lat) = lonlat2xyz (α := α) earthRadius lon lat ∧
      lonlat2xyz (meanEarthRadius : Ov L) (mk lon) (mk lat) = lonlat2xyz (α := α) meanEarthRadius lon lat) ∧
    (∀ (low : Bool) (x y z : α), m.mag x ≤ 10 ^ 18 → m.mag y ≤ 10 ^ 18 → m.mag z ≤ 10 ^ 18 →
      xyz2lonlat (earthRadius : Ov L) defaultThr low (mk x, mk y, mk z) = xyz2lonlat (α := α) earthRadius defaultThr low (x, y, z) ∧
      viiXyz2lonlat (meanEarthRadius : Ov L) defaultThr (mk x, mk y, mk z) = viiXyz2lonlat (α := α) meanEarthRadius defaultThr (x, y, z)) := by
  have hthr := (thr_same (m := m) hL).mono (by norm_num : (1 : ℝ) ≤ 2)
  refine ⟨fun lon lat h1 h2 => ?_, fun low x y z hx hy hz => ?_⟩
  · have a := lonlat2xyz_same hL (radius_same hL) (Same.input h1) (Same.input h2)
    have b := lonlat2xyz_same hL (meanRadius_same hL) (Same.input h1) (Same.input h2)
    exact ⟨Prod.ext a.1.1 (Prod.ext a.2.1.1 a.2.2.1), Prod.ext b.1.1 (Prod.ext b.2.1.1 b.2.2.1)⟩
  · have a := xyz2lonlat_same hL (radius_same hL) radius_ge hthr low (Same.input hx) (Same.input hy) (Same.input hz)
    have b := viiXyz2lonlat_same hL (meanRadius_same hL) meanRadius_ge hthr (Same.input hx) (Same.input hy) (Same.input hz)
    exact ⟨Prod.ext a.1.1 a.2.1, Prod.ext b.1.1 b.2.1⟩

/-- the arrays of an arithmetic as those of the arithmetic with overflow -/
def ovArr (L : Limit m) (a : Arr2 α) : Arr2 (Ov L) := ⟨a.rows, a.cols, fun i j => mk (a.cell i j)⟩

private theorem coords_same (hL : (10 : ℝ) ^ 37 ≤ L.bound) (c : Conv) (w : Nat) {r k : Nat} (hr : r < c.scanRows * c.factor) (hk : k < c.outCols) :
    Same ((getCoords (c.cfg w)).1.cell k : Ov L) ((getCoords (c.cfg w)).1.cell k) 63 ∧
    Same ((getCoords (c.cfg w)).2.cell r : Ov L) ((getCoords (c.cfg w)).2.cell r) 63 := by
  have l := leL hL (by norm_num : (63 : ℝ) ≤ _)
  have fl {x : Ov L} {a : α} (h : Same x a 50) : Same (Trig.toFloating x) (Trig.toFloating a) 63 := h.toFloating (by norm_num) l
  have hf2 : 2 ≤ c.factor ∧ c.factor ≤ 20 := by cases c <;> simp [Conv.factor]
  by_cases h10 : c = .km1to500 ∨ c = .km1to250
  · have hc : (c.cfg w).len = 10 ∧ (c.cfg w).f = c.factor ∧ (c.cfg w).fineWidth = c.outCols ∧ c.scanRows = 10 ∧ c.factor ≤ 4 := by
      rcases h10 with rfl | rfl <;> exact ⟨rfl, rfl, rfl, rfl, by decide⟩
    unfold getCoords
    rw [if_pos hc.1, if_pos hc.1]
    exact ⟨fl (coordX1km_same hL _ (by rw [hc.2.1]; exact hf2) (by rw [hc.2.2.1]; exact hk)),
      fl (coordY1km_same hL _ hc.1 (by rw [hc.2.1]; exact ⟨hf2.1, hc.2.2.2.2⟩) (by rw [hc.1, hc.2.1, ← hc.2.2.2.1]; exact hr))⟩
  · have hc : (c.cfg w).len ≠ 10 ∧ (c.cfg w).f = c.factor ∧ c.scanRows = 2 := by
      cases c <;> simp [Conv.cfg, Conv.factor, Conv.scanRows] at h10 ⊢
    unfold getCoords
    rw [if_neg hc.1, if_neg hc.1]
    refine ⟨fl (coordX5km_same hL _ (by rw [hc.2.1]; exact hf2)), fl (int_same hL _ ?_)⟩
    rw [hc.2.2] at hr
    rw [abs_le]
    omega

/-- one pixel -/
private theorem pixel_same (hL : (10 : ℝ) ^ 37 ≤ L.bound) (hW : (10 : ℝ) ^ 75 ≤ L.wide) (c : Conv) (w : Nat) {r k : Nat}
    (hk : k < c.outCols) (lon lat satz : Nat → Nat → α) {i j : Nat}
    (hi : i = r / (c.scanRows * c.factor) * c.scanRows + cellRow (c.cfg w) (r % (c.scanRows * c.factor))) (hj : j = cellCol (c.cfg w) k)
    (hin : ∀ i' j', (i' = i ∨ i' = i + 1) → (j' = j ∨ j' = j + 1) →
      m.mag (lon i' j') ≤ 10 ^ 10 ∧ m.mag (lat i' j') ≤ 10 ^ 10 ∧ m.mag (satz i' j') ≤ 10 ^ 10)
    (he : m.mag (expansionAlignment (c.cfg w).perKm (satz i j) (satz i (j + 1))).1 ≤ 10 ^ 17)
    (ha : m.mag (expansionAlignment (c.cfg w).perKm (satz i j) (satz i (j + 1))).2 ≤ 10 ^ 17) :
    Same2 (pixel (α := Ov L) (c.cfg w) (fun i j => mk (lon i j)) (fun i j => mk (lat i j)) (fun i j => mk (satz i j)) r k)
      (pixel (c.cfg w) lon lat satz r k) (10 ^ 4) := by
  have hf : (c.cfg w).f = c.factor := c.cfg_f w
  have hlen : (c.cfg w).len = c.scanRows := c.cfg_len w
  have hf2 : 2 ≤ c.factor ∧ c.factor ≤ 20 := by cases c <;> simp [Conv.factor]
  have hs2 : 0 < c.scanRows := by cases c <;> simp [Conv.scanRows]
  have hper : (c.cfg w).perKm ≤ 5 := by cases c <;> simp [Conv.cfg]
  have hr := Nat.mod_lt r (Nat.mul_pos hs2 (by omega : 0 < c.factor))
  obtain ⟨c1, c2⟩ := coords_same hL c w hr hk
  have hz (j' : Nat) (h : j' = j ∨ j' = j + 1) : Same (mk (satz i j') : Ov L) (satz i j') (10 ^ 10) :=
    Same.input (hin i j' (Or.inl rfl) h).2.2
  have ea := expansionAlignment_same hL (c.cfg w).perKm hper (hz j (Or.inl rfl)) (hz (j + 1) (Or.inr rfl)) he ha
  have ts := atrackAscan_same hL (c.cfg w).f (by rw [hf]; exact hf2.1) (by rw [hf]; exact hf2.2) c1 c2 ea.1 ea.2
  have tie (i' j' : Nat) (h : i' = i ∨ i' = i + 1) (h' : j' = j ∨ j' = j + 1) (n : Nat) :
      Same (ties (α := Ov L) (fun i j => mk (lon i j)) (fun i j => mk (lat i j)) i' j' n) (ties lon lat i' j' n) (10 ^ 8) := by
    obtain ⟨p1, p2, -⟩ := hin i' j' h h'
    obtain ⟨q1, q2, q3⟩ := cyLonlat2xyz_same hL (radius_same hL) (Same.input p1) (Same.input p2)
    unfold ties comp tieXyz
    split
    · exact q1
    · split
      · exact q2
      · exact q3
  have fine (n : Nat) : Same (fineXyz (α := Ov L) (c.cfg w) (ties (fun i j => mk (lon i j)) (fun i j => mk (lat i j)))
        (fun i j => mk (satz i j)) (r / (c.scanRows * c.factor) * c.scanRows) (r % (c.scanRows * c.factor)) k n)
      (fineXyz (c.cfg w) (ties lon lat) satz (r / (c.scanRows * c.factor) * c.scanRows) (r % (c.scanRows * c.factor)) k n) (7 * 10 ^ 35) := by
    unfold fineXyz trackScan
    simp only
    rw [← hi, ← hj]
    exact fineComponent_same hL ts.1 ts.2 (tie _ _ (Or.inl rfl) (Or.inl rfl) n) (tie _ _ (Or.inl rfl) (Or.inr rfl) n)
      (tie _ _ (Or.inr rfl) (Or.inr rfl) n) (tie _ _ (Or.inr rfl) (Or.inl rfl) n)
  unfold pixel scanPixel
  rw [hlen, hf]
  exact cyXyz2lonlat_same hL hW (radius_same hL) radius_ge (cyThr_same hL) true (fine 0) (fine 1) (fine 2)

end generic

/-! ## the zenith-angle interpolator -/

variable {q : Mixed} {ε : ℝ}

/-- `float` stores numbers up to `maxS`, `double` up to `maxD` -/
noncomputable def mxLimit (h : Mx.Prec q ε) (maxS maxD : ℝ) : Limit (Mx.approx h) where
  fits
    | .sgl x => |x| ≤ maxS
    | .dbl x => |x| ≤ maxD
    | _ => True
  bound := min maxS maxD
  fits_of_le x hx := by
    cases x with
    | int n => trivial
    | bad => trivial
    | sgl a => exact le_trans (le_of_eq ((Mx.approx h).mag_some rfl).symm) (hx.trans (min_le_left _ _))
    | dbl a => exact le_trans (le_of_eq ((Mx.approx h).mag_some rfl).symm) (hx.trans (min_le_right _ _))
  dbl x := x = .bad ∨ ∃ a, x = .dbl a
  wide := maxD
  fits_of_le_wide x hd hx := by
    rcases hd with rfl | ⟨a, rfl⟩
    · trivial
    · exact le_trans (le_of_eq ((Mx.approx h).mag_some rfl).symm) hx
  dbl_toDouble x := by
    cases x
    · exact Or.inr ⟨_, rfl⟩
    · exact Or.inr ⟨_, rfl⟩
    · exact Or.inr ⟨_, rfl⟩
    · exact Or.inl rfl
  dbl_add x y hx hy := by
    rcases hx with rfl | ⟨a, rfl⟩
    · exact Or.inl rfl
    · rcases hy with rfl | ⟨b, rfl⟩
      · exact Or.inl rfl
      · exact Or.inr ⟨_, rfl⟩
  dbl_mul x y hx hy := by
    rcases hx with rfl | ⟨a, rfl⟩
    · exact Or.inl rfl
    · rcases hy with rfl | ⟨b, rfl⟩
      · exact Or.inl rfl
      · exact Or.inr ⟨_, rfl⟩

/-- largest finite `float32` -/
noncomputable def maxFloat32 : ℝ := (2 ^ 24 - 1) * 2 ^ 104
/-- largest finite `float64` -/
noncomputable def maxFloat64 : ℝ := (2 ^ 53 - 1) * 2 ^ 971

theorem maxFloats : (10 : ℝ) ^ 37 ≤ maxFloat32 ∧ (10 : ℝ) ^ 75 ≤ maxFloat64 := by
  constructor
  · norm_num [maxFloat32]
  · have h1 : (2 : ℝ) ^ 250 ≤ 2 ^ 971 := pow_le_pow_right₀ (by norm_num) (by norm_num)
    have h2 : (10 : ℝ) ^ 75 ≤ 1 * 2 ^ 250 := by norm_num
    refine h2.trans ?_
    unfold maxFloat64
    exact mul_le_mul (by norm_num) h1 (by positivity) (by norm_num)

/-- **C102 (coefficients)**: whatever the two zenith angles (nearly equal ones included), the expansion and alignment coefficients that the code
computes are numbers of at most `10^4 * 2^p` and `10^6 * 2^p`, `p` the bits of a `float`, or not a number. -/
theorem C102_coefficients (h : Mx.Prec q ε) (w : Nat) (hw : w ≤ 5) (x y : Mx q) :
    (∀ c, Mx.value (expansionAlignment w x y).1 = some c → |c| ≤ 10 ^ 4 * 2 ^ q.s.p) ∧
    (∀ c, Mx.value (expansionAlignment w x y).2 = some c → |c| ≤ 10 ^ 6 * 2 ^ q.s.p) := by
  obtain ⟨h1, h2⟩ := Mx.coef_all h w hw x y
  constructor
  · intro c hc
    rwa [(Mx.approx h).mag_some hc] at h1
  · intro c hc
    rwa [(Mx.approx h).mag_some hc] at h2

example (x y : Mx Mixed.ieee) (c : ℝ) (h : Mx.value (expansionAlignment 5 x y).1 = some c) : |c| ≤ 10 ^ 4 * 2 ^ 24 :=
  (C102_coefficients prec_ieee 5 (by norm_num) x y).1 c h

/-- the numbers of an array are at most `10^10`; it may contain NaN -/
def Moderate (a : Arr2 (Mx q)) : Prop := ∀ i j, i < a.rows → j < a.cols → ∀ x, Mx.value (a.cell i j) = some x → |x| ≤ 10 ^ 10

/-- **C102 (zenith-angle MODIS interpolator)**: let `float` store numbers up to `maxS ≥ 10^37` (float32: 3.4e38) and `double` numbers up to
`maxD ≥ 10^75`, everything larger being replaced by an infinity (merged with NaN).  For every conversion, every number of scans and all
longitudes, latitudes and zenith angles that are at most `10^10` or not numbers, the result is the same as in arithmetic without overflow: no
intermediate result overflows. -/
theorem C102_modis (h : Mx.Prec q ε) (hp : q.s.p ≤ 30) (maxS maxD : ℝ) (hS : (10 : ℝ) ^ 37 ≤ maxS) (hD : (10 : ℝ) ^ 75 ≤ maxD) (c : Conv)
    (n : Nat) (lon lat satz : Arr2 (Mx q)) (hin : ScanInput c n lon lat satz) (h1 : Moderate lon) (h2 : Moderate lat) (h3 : Moderate satz)
    (junk : Nat → Nat → Nat → Nat → Mx q) (junk' : Nat → Nat → Nat → Nat → Ov (mxLimit h maxS maxD)) :
    ∃ out out', c.run lon lat satz junk = .ok out ∧
      c.run (ovArr (mxLimit h maxS maxD) lon) (ovArr _ lat) (ovArr _ satz) junk' = .ok out' ∧
      (out'.1.rows = out.1.rows ∧ out'.1.cols = out.1.cols ∧ out'.2.rows = out.2.rows ∧ out'.2.cols = out.2.cols) ∧
      ∀ r k, r < lon.rows * c.factor → k < c.outCols →
        (out'.1.cell r k).get = out.1.cell r k ∧ (out'.2.cell r k).get = out.2.cell r k := by
  obtain ⟨out, e, p1, p2⟩ := run_pixel c hin junk
  obtain ⟨out', e', p1', p2'⟩ := run_pixel c (n := n) (lon := ovArr (mxLimit h maxS maxD) lon) (lat := ovArr _ lat) (satz := ovArr _ satz)
    ⟨hin.width, hin.lonRows, hin.latRows, hin.satzRows, hin.latCols, hin.satzCols⟩ junk'
  have hL : (10 : ℝ) ^ 37 ≤ (mxLimit h maxS maxD).bound := le_min hS (le_trans (by norm_num) hD)
  have hW : (10 : ℝ) ^ 75 ≤ (mxLimit h maxS maxD).wide := hD
  have h30 : (2 : ℝ) ^ q.s.p ≤ 2 ^ 30 := pow_le_pow_right₀ (by norm_num) hp
  have hmag (a : Arr2 (Mx q)) (ha : Moderate a) (i j : Nat) (hi : i < a.rows) (hj : j < a.cols) :
      (Mx.approx h).mag (a.cell i j) ≤ 10 ^ 10 := by
    cases ev : Mx.value (a.cell i j) with
    | none => rw [(Mx.approx h).mag_none ev]; norm_num
    | some x => rw [(Mx.approx h).mag_some ev]; exact ha i j hi hj x ev
  refine ⟨out, out', e, e', ⟨p1'.rows.trans p1.rows.symm, p1'.cols.trans p1.cols.symm, p2'.rows.trans p2.rows.symm,
    p2'.cols.trans p2.cols.symm⟩, ?_⟩
  intro r k hr hk
  rw [hin.lonRows] at hr
  have hper : (c.cfg lon.cols).perKm ≤ 5 := by cases c <;> simp [Conv.cfg]
  have hcol : cellCol (c.cfg lon.cols) k + 1 < lon.cols := by
    have hw := hin.width
    cases c <;> simp only [Conv.WidthOk, cellCol, Conv.cfg] at hw ⊢ <;> simp <;> omega
  have hrow : r / (c.scanRows * c.factor) * c.scanRows + cellRow (c.cfg lon.cols) (r % (c.scanRows * c.factor)) + 1 < n * c.scanRows := by
    have h5 : cellRow (c.cfg lon.cols) (r % (c.scanRows * c.factor)) + 1 < c.scanRows := by
      cases c <;> simp only [cellRow, Conv.cfg, Conv.scanRows] <;> simp <;> omega
    have h6 : r / (c.scanRows * c.factor) < n := by
      apply Nat.div_lt_of_lt_mul
      rw [Nat.mul_comm, ← Nat.mul_assoc]
      exact hr
    calc _ < r / (c.scanRows * c.factor) * c.scanRows + c.scanRows := by omega
      _ = (r / (c.scanRows * c.factor) + 1) * c.scanRows := by ring
      _ ≤ _ := Nat.mul_le_mul_right _ h6
  have hs := pixel_same hL hW c lon.cols hk lon.cell lat.cell satz.cell rfl rfl (r := r)
    (fun i' j' hi' hj' => by
      have hi : i' < n * c.scanRows := by rcases hi' with rfl | rfl <;> omega
      have hj : j' < lon.cols := by rcases hj' with rfl | rfl <;> omega
      exact ⟨hmag lon h1 i' j' (by rw [hin.lonRows]; exact hi) hj, hmag lat h2 i' j' (by rw [hin.latRows]; exact hi) (by rw [hin.latCols]; exact hj),
        hmag satz h3 i' j' (by rw [hin.satzRows]; exact hi) (by rw [hin.satzCols]; exact hj)⟩)
    ((Mx.coef_all h _ hper _ _).1.trans (by norm_num at h30 ⊢; linarith))
    ((Mx.coef_all h _ hper _ _).2.trans (by norm_num at h30 ⊢; linarith))
  rw [p1.cell r k hr hk trivial, p2.cell r k hr hk trivial, p1'.cell r k hr hk trivial, p2'.cell r k hr hk trivial]
  exact ⟨hs.1.1, hs.2.1⟩

/-- float32 and float64: all hypotheses on the formats are met -/
example (c : Conv) (n : Nat) (lon lat satz : Arr2 (Mx Mixed.ieee)) (hin : ScanInput c n lon lat satz) (h1 : Moderate lon) (h2 : Moderate lat)
    (h3 : Moderate satz) (junk : Nat → Nat → Nat → Nat → Mx Mixed.ieee)
    (junk' : Nat → Nat → Nat → Nat → Ov (mxLimit prec_ieee maxFloat32 maxFloat64)) :
    ∃ out out', c.run lon lat satz junk = .ok out ∧
      c.run (ovArr (mxLimit prec_ieee maxFloat32 maxFloat64) lon) (ovArr _ lat) (ovArr _ satz) junk' = .ok out' ∧
      (out'.1.rows = out.1.rows ∧ out'.1.cols = out.1.cols ∧ out'.2.rows = out.2.rows ∧ out'.2.cols = out.2.cols) ∧
      ∀ r k, r < lon.rows * c.factor → k < c.outCols →
        (out'.1.cell r k).get = out.1.cell r k ∧ (out'.2.cell r k).get = out.2.cell r k :=
  C102_modis prec_ieee (by show 24 ≤ 30; norm_num) _ _ maxFloats.1 maxFloats.2 c n lon lat satz hin h1 h2 h3 junk junk'

/-- inputs with a NaN in every row -/
example : Moderate (⟨20, 1354, fun i j => if j = i then .bad else .sgl (i + j)⟩ : Arr2 (Mx q)) := by
  intro i j hi hj x hx
  by_cases e : j = i
  · rw [show (⟨20, 1354, fun i j => if j = i then Mx.bad else Mx.sgl (i + j)⟩ : Arr2 (Mx q)).cell i j = Mx.bad from if_pos e] at hx
    cases hx
  · rw [show (⟨20, 1354, fun i j => if j = i then Mx.bad else Mx.sgl (i + j)⟩ : Arr2 (Mx q)).cell i j = Mx.sgl (i + j) from if_neg e] at hx
    have hx' : ((i : ℝ) + j) = x := by simpa [Mx.value] using hx
    have hi' : (i : ℝ) < 20 := by exact_mod_cast hi
    have hj' : (j : ℝ) < 1354 := by exact_mod_cast hj
    rw [← hx', abs_of_nonneg (by positivity)]
    norm_num
    linarith

/-- **C102 (the limits are limits)**: the arithmetic with overflow is another one than that without: the square of `10^20` is no float32. -/
theorem C102_limit (h : Mx.Prec q ε) : ∀ maxD, (mk (.sgl (10 ^ 20)) * mk (.sgl (10 ^ 20)) : Ov (mxLimit h maxFloat32 maxD)).get = .bad ∧
    (.sgl (10 ^ 20) * .sgl (10 ^ 20) : Mx q) ≠ .bad := by
  intro maxD
  refine ⟨if_neg ?_, fun e => by cases e⟩
  show ¬ |q.s.rnd (10 ^ 20 * 10 ^ 20)| ≤ maxFloat32
  have h1 := (Err.rel_rnd h.s (10 ^ 20 * 10 ^ 20)).le_abs
  have h2 := h.le'
  rw [abs_of_nonneg (by positivity : (0 : ℝ) ≤ 10 ^ 20 * 10 ^ 20)] at h1
  rw [not_le]
  refine lt_of_lt_of_le ?_ h1
  norm_num [maxFloat32] at h2 ⊢
  linarith

end Verif.Props
