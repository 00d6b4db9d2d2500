import Verif.Proofs.MxSimple
import Verif.Props.MxPipeline
import Verif.Props.ModisSimple

/-!
# C75: accuracy of the simple MODIS interpolation from longitudes and latitudes to longitudes and latitudes

The code as it runs: float32 arrays, double constants and library functions.
-/

namespace Verif.Props
open Verif Verif.ModisSimple Verif.Spec Verif.Spec.Modis Verif.Geo Verif.Err Mx
variable {q : Mixed} {ε : ℝ}

/-! ### a library as assumed -/

/-- linear interpolation, rounded once to `float` -/
noncomputable def mcRounded (q : Mixed) : MapCoord (Mx q) := fun R C v y x =>
  match y, x with
  | .sgl y, .sgl x =>
    let at_ := fun a b => if h : a < R ∧ b < C then ((v ⟨a, h.1⟩ ⟨b, h.2⟩).value).getD 0 else 0
    sgl (q.s.rnd (lin1 R (fun a => lin1 C (at_ a) (clampTo C x)) (clampTo R y)))
  | _, _ => .bad

/-- there are libraries as assumed -/
theorem mcRounded_ok (q : Mixed) : LinearLib q q.s.u (mcRounded q) := by
  intro R C X y x M a b ha hb y0 y1 x0 x1 hX
  refine ⟨_, q.s.rep _, rfl, ?_⟩
  have at_eq : ∀ a' b', a' < R → b' < C → (if h : a' < R ∧ b' < C then (Mx.value (sgl (X a' b') : Mx q)).getD 0 else 0) = X a' b' := by
    intro a' b' h1 h2
    rw [dif_pos ⟨h1, h2⟩]; rfl
  have e : lin1 R (fun a => lin1 C (fun b => if h : a < R ∧ b < C then (Mx.value (sgl (X a b) : Mx q)).getD 0 else 0) (clampTo C x)) (clampTo R y)
      = bil X a b (clampTo R y - a) (clampTo C x - b) := by
    rw [lin1_cell _ ha (Or.inr y0) (Or.inr y1), lin1_cell _ hb (Or.inr x0) (Or.inr x1), lin1_cell _ hb (Or.inr x0) (Or.inr x1),
      at_eq a b (by omega) (by omega), at_eq a (b + 1) (by omega) (by omega), at_eq (a + 1) b (by omega) (by omega),
      at_eq (a + 1) (b + 1) (by omega) (by omega)]
    rfl
  show |q.s.rnd (lin1 R (fun a => lin1 C (fun b => if h : a < R ∧ b < C then (Mx.value (sgl (X a b) : Mx q)).getD 0 else 0) (clampTo C x)) (clampTo R y)) - _| ≤ _
  rw [e]
  refine (q.s.abs_rnd_sub_le_u _).trans (mul_le_mul_of_nonneg_left ?_ q.s.u_pos.le)
  have conv : ∀ {t u v : ℝ}, 0 ≤ t → t ≤ 1 → |u| ≤ M → |v| ≤ M → |(1 - t) * u + t * v| ≤ M := by
    intro t u v h0 h1 hu hv
    refine (abs_add_le _ _).trans ?_
    rw [abs_mul, abs_mul, abs_of_nonneg h0, abs_of_nonneg (by linarith : 0 ≤ 1 - t)]
    have := mul_le_mul_of_nonneg_left hu (by linarith : 0 ≤ 1 - t)
    have := mul_le_mul_of_nonneg_left hv h0
    linarith
  have s0 : 0 ≤ clampTo C x - b := by linarith
  have s1 : clampTo C x - b ≤ 1 := by linarith
  unfold bil
  exact conv (by linarith) (by linarith) (conv s0 s1 (hX _ _ (Or.inl rfl) (Or.inl rfl)) (hX _ _ (Or.inl rfl) (Or.inr rfl)))
    (conv s0 s1 (hX _ _ (Or.inr rfl) (Or.inl rfl)) (hX _ _ (Or.inr rfl) (Or.inr rfl)))

/-! ### C75 -/

private theorem err_scale (ε M W e R : ℝ) (f C j i : Nat) :
    rowErr ε (M * R) (W * R) f j (colErr ε (M * R) (W * R) f C i (e * R)) = rowErr ε M W f j (colErr ε M W f C i e) * R := by
  unfold rowErr colErr
  split_ifs <;> ring

/-- **C75 (coordinates)**: each float32 cartesian coordinate of a fine pixel, with the roundings of the two extrapolations, against the
bilinear combination of the corners `X` of its cell, for any map_coordinates accurate to `ρ`. -/
theorem C75_simple_coordinate (h : Prec q ε) {ρ : ℝ} {mc : MapCoord (Mx q)} (hmc : LinearLib q ρ mc) (c : SConv) (C : Nat) (hC : 2 ≤ C)
    (hCp : c.factor * C ≤ 2 ^ q.s.p) (X : Nat → Nat → ℝ) {j i a b : Nat} {M W : ℝ} (hj : j < 10 * c.factor) (hi : i < c.factor * C)
    (ha : a = simpleRow c.factor j) (hb : b = simpleCol c.factor C i) (hX : CellOk X a b M W) :
    ∃ v, ModisSimple.fine mc c.factor C (fun a b => (sgl (X a b) : Mx q)) j i = sgl v ∧
      |v - bil X a b (((j : ℝ) + 1 / 2) / c.factor - 1 / 2 - a) ((i : ℝ) / c.factor - b)|
        ≤ rowErr ε M W c.factor j (colErr ε M W c.factor C i (ρ * M)) := by
  obtain ⟨v, -, h1, h2⟩ := fine_mx h hmc c.factor_ok hC hCp hj hi ha hb hX
  exact ⟨v, h1, h2⟩

/-- corners within 1000 km, neighbours within 10 km, last column of the first row of a scan: within 6 m -/
example (X : Nat → Nat → ℝ) (hX : CellOk X 0 1352 1000000 10000) :
    ∃ v, ModisSimple.fine (mcRounded Mixed.ieee) 4 1354 (fun a b => (sgl (X a b) : Mx Mixed.ieee)) 0 5415 = sgl v ∧
      |v - bil X 0 1352 (-0.375) 1.75| ≤ 6 := by
  obtain ⟨v, h1, h2⟩ := C75_simple_coordinate prec_ieee (mcRounded_ok Mixed.ieee) .km1to250 1354 (by norm_num)
    (by show 4 * 1354 ≤ 2 ^ 24; norm_num) X (j := 0) (i := 5415) (by decide) (by decide) (by decide) (by decide) hX
  have u24 : Mixed.ieee.s.u = 1 / 2 ^ 24 := by
    show (2 : ℝ) ^ (-((24 : ℕ) : ℤ)) = _
    rw [zpow_neg, zpow_natCast]; norm_num
  refine ⟨v, h1, ?_⟩
  have e1 : (((0 : ℕ) : ℝ) + 1 / 2) / SConv.km1to250.factor - 1 / 2 - ((0 : ℕ) : ℝ) = -0.375 := by norm_num [SConv.factor]
  have e2 : ((5415 : ℕ) : ℝ) / SConv.km1to250.factor - ((1352 : ℕ) : ℝ) = 1.75 := by norm_num [SConv.factor]
  rw [u24, e1, e2] at h2
  refine h2.trans ?_
  show rowErr (1 / 2 ^ 24) 1000000 10000 4 0 (colErr (1 / 2 ^ 24) 1000000 10000 4 1354 5415 (1 / 2 ^ 24 * 1000000)) ≤ 6
  norm_num [rowErr, colErr]

/-- **C75**: simple MODIS geolocation, as the code runs it (float32 arrays, double constants and functions), from longitudes and
latitudes of the tie points to longitudes and latitudes of the fine pixels: for both conversions, every whole number of scans,
every number of columns whose indices are float32 numbers, every library `map_coordinates` accurate to `ρ` and every fine pixel
whose cell has valid tie points.  Let `P` be the exact combination of the four tie points of the sphere at the position of the
pixel, row `(j + 1/2) / f - 1/2` of the scan and column `k / f`.  If `P` is within `η` of the point of the sphere at (`lon'`, `lat'`),
the reported longitude is within `270 sqrt εd + 98 η' + 190 ε` degrees of `lon'` on the circle and the latitude within
`115 η' + 95 ε` degrees of `lat'`, where `η' = η + 1.42 δ / cos lat'` and `δ` is the sum of `6 ε Kt Ks` for the conversion of the tie
points and of the error of the interpolation: `ρ` inside the scan, `7.01 ρ + ε + 3 ε ω` to the right of the last tie column,
and `5.01` times as much plus `2.01 ε + 95 ε ω` beyond the first and last tie rows, `ω` the size of the cell in Earth radii
(`Kt = |T| + |1 - T|`, `Ks = |S| + |1 - S|`, 1 inside the cell).  Only within `90 η'` degrees of the 180-degree meridian longitude
0 may be reported instead (C07). -/
theorem C75_simple_pixel (h : Prec q ε) {εd : ℝ} (hd : LibRel q.d εd) (hεd : εd ≤ ε / 1000) {ρ : ℝ} {mc : MapCoord (Mx q)} (hmc : LinearLib q ρ mc)
    (c : SConv) (n C : Nat) (hC : 2 ≤ C) (hCp : c.factor * C ≤ 2 ^ q.s.p) (lon lat : Nat → Nat → ℝ) (junk : Nat → Nat → Nat → Nat → Mx q) :
    ∃ out, c.run mc ⟨n * 10, C, fun i j => sgl (lon i j)⟩ ⟨n * 10, C, fun i j => sgl (lat i j)⟩ junk = .ok out ∧
      ∀ s j k a b, s < n → j < 10 * c.factor → k < C * c.factor → a = simpleRow c.factor j → b = simpleCol c.factor C k →
        (∀ a' b', (a' = a ∨ a' = a + 1) → (b' = b ∨ b' = b + 1) → |lon (s * 10 + a') b'| ≤ 180 ∧ |lat (s * 10 + a') b'| ≤ 90) →
        ∀ ω, CellSize lon lat (s * 10 + a) b (ω * 6370997) →
        ∀ T S δ η η' lon' lat',
          T = ((j : ℝ) + 1 / 2) / c.factor - 1 / 2 - a → S = (k : ℝ) / c.factor - b →
          δ = rowErr ε (1 + 6 * ε) (ω + 12 * ε) c.factor j (colErr ε (1 + 6 * ε) (ω + 12 * ε) c.factor C k (ρ * (1 + 6 * ε)))
            + 6 * ε * ((|T| + |1 - T|) * (|S| + |1 - S|)) →
          |lon'| ≤ 180 → |lat'| < 90 → NearSphere 6370997 η lon' lat' (cellPoint lon lat (s * 10 + a) b T S) →
          η' = η + 1.42 * δ / Real.cos (rad lat') → η' ≤ 1 / 100 →
          (∃ L, out.1.cell (s * (10 * c.factor) + j) k = sgl L ∧
            (LonWithin (270 * √εd + 98 * η' + 190 * ε) L lon' ∨ (L = 0 ∧ 180 - 90 * η' ≤ |lon'|))) ∧
          (∃ B, out.2.cell (s * (10 * c.factor) + j) k = sgl B ∧ |B - lat'| ≤ 115 * η' + 95 * ε) := by
  obtain ⟨out, eo, p1, p2⟩ := srun_pixel c mc (n := n) (lon := ⟨n * 10, C, fun i j => (sgl (lon i j) : Mx q)⟩)
    (lat := ⟨n * 10, C, fun i j => sgl (lat i j)⟩) ⟨hC, rfl, rfl, rfl⟩ junk
  refine ⟨out, eo, ?_⟩
  intro s j k a b hs hj hk ha hb hv ω hω T S δ η η' lon' lat' hT hS hδ hlo hla hn hη' hη1
  have hr : s * (10 * c.factor) + j < n * 10 * c.factor := by
    have h1 : (s + 1) * (10 * c.factor) ≤ n * (10 * c.factor) := Nat.mul_le_mul_right _ hs
    have h2 : (s + 1) * (10 * c.factor) = s * (10 * c.factor) + 10 * c.factor := by ring
    rw [Nat.mul_assoc]; omega
  rw [p1.cell _ _ hr hk trivial, p2.cell _ _ hr hk trivial, ModisSimple.pixel_block _ _ hj]
  unfold ModisSimple.scanPixel
  obtain ⟨X, eX⟩ : ∃ X : Nat → Nat → Nat → ℝ, X = fun l a b => coord (fwdM q (lon (s * 10 + a) b) (lat (s * 10 + a) b)) l := ⟨_, rfl⟩
  have et : ∀ l, (fun a b => ties (fun i j => (sgl (lon i j) : Mx q)) (fun i j => sgl (lat i j)) (s * 10 + a) b l) = fun a b => sgl (X l a b) := by
    intro l; funext a b; rw [ties_mx, eX]
  obtain ⟨R, eR⟩ : ∃ R : ℝ, R = 6370997 := ⟨_, rfl⟩
  have hX : ∀ l a' b', (a' = a ∨ a' = a + 1) → (b' = b ∨ b' = b + 1) →
      |X l a' b' - coord (spherePoint 6370997 (lon (s * 10 + a') b') (lat (s * 10 + a') b')) l| ≤ 6 * ε * 6370997 := by
    intro l a' b' h1 h2
    rw [eX]
    exact fwdM_err h (hv a' b' h1 h2).1 (hv a' b' h1 h2).2 l
  have k00 : (a = a ∨ a = a + 1) := Or.inl rfl
  have k01 : (a + 1 = a ∨ a + 1 = a + 1) := Or.inr rfl
  have l00 : (b = b ∨ b = b + 1) := Or.inl rfl
  have l01 : (b + 1 = b ∨ b + 1 = b + 1) := Or.inr rfl
  have hcell : ∀ l, CellOk (X l) a b ((1 + 6 * ε) * 6370997) ((ω + 12 * ε) * 6370997) := by
    intro l
    have hω' := hω l
    simp only [Nat.add_assoc] at hω'
    have e12 : (ω + 12 * ε) * 6370997 = ω * 6370997 + 2 * (6 * ε * 6370997) := by ring
    refine ⟨?_, ?_, ?_, ?_, ?_⟩
    · intro a' b' h1 h2
      have g1 := hX l a' b' h1 h2
      have g2 := coord_sphere (lon (s * 10 + a') b') (lat (s * 10 + a') b') l
      calc |X l a' b'| = |coord (spherePoint 6370997 (lon (s * 10 + a') b') (lat (s * 10 + a') b')) l
            + (X l a' b' - coord (spherePoint 6370997 (lon (s * 10 + a') b') (lat (s * 10 + a') b')) l)| := by ring_nf
        _ ≤ _ := abs_add_le _ _
        _ ≤ _ := by linarith
    · rw [e12]; exact diff_near hω'.1 (hX l _ _ k00 l01) (hX l _ _ k00 l00)
    · rw [e12]; exact diff_near hω'.2.1 (hX l _ _ k01 l01) (hX l _ _ k01 l00)
    · rw [e12]; exact diff_near hω'.2.2.1 (hX l _ _ k01 l00) (hX l _ _ k00 l00)
    · rw [e12]; exact diff_near hω'.2.2.2 (hX l _ _ k01 l01) (hX l _ _ k00 l01)
  have key := fun l => fine_mx h hmc c.factor_ok hC hCp hj (show k < c.factor * C by rw [Nat.mul_comm]; exact hk) ha hb (hcell l)
  have ey : yPos c.factor j - a = T := by rw [hT]; rfl
  rw [ey, ← hS] at key
  have near : ∀ {l : Nat} {v : ℝ},
      |v - bil (X l) a b T S| ≤ rowErr ε ((1 + 6 * ε) * 6370997) ((ω + 12 * ε) * 6370997) c.factor j
          (colErr ε ((1 + 6 * ε) * 6370997) ((ω + 12 * ε) * 6370997) c.factor C k (ρ * ((1 + 6 * ε) * 6370997))) →
      |v - ((1 - T) * ((1 - S) * coord (spherePoint 6370997 (lon (s * 10 + a) b) (lat (s * 10 + a) b)) l
          + S * coord (spherePoint 6370997 (lon (s * 10 + a) (b + 1)) (lat (s * 10 + a) (b + 1))) l)
        + T * ((1 - S) * coord (spherePoint 6370997 (lon (s * 10 + a + 1) b) (lat (s * 10 + a + 1) b)) l
          + S * coord (spherePoint 6370997 (lon (s * 10 + a + 1) (b + 1)) (lat (s * 10 + a + 1) (b + 1))) l))| ≤ δ * 6370997 := by
    intro l v e1
    have d2 := comb_diff (T := T) (S := S) (hX l a b k00 l00) (hX l a (b + 1) k00 l01) (hX l (a + 1) (b + 1) k01 l01) (hX l (a + 1) b k01 l00)
    rw [← mul_assoc ρ, err_scale] at e1
    rw [← sub_add_sub_cancel v (bil (X l) a b T S)]
    refine (abs_add_le _ _).trans ((add_le_add e1 d2).trans (le_of_eq ?_))
    rw [hδ]
    ring
  obtain ⟨v0, r0, a0, n0⟩ := key 0
  obtain ⟨v1, r1, a1, n1⟩ := key 1
  obtain ⟨v2, r2, a2, n2⟩ := key 2
  simp only [et]
  rw [a0, a1, a2]
  exact back_mx h hd hεd r0 r1 r2 (P := cellPoint lon lat (s * 10 + a) b T S) (near n0) (near n1) (near n2) hlo hla hn hη' hη1

/-- One scan of 1354 columns, 1 km to 250 m, all tie points at 10 degrees east, 60 degrees north: the pixel in the first row and last
column, extrapolated in both directions, is reported at latitude 60 and longitude 10 within 0.002 degrees. -/
example (junk : Nat → Nat → Nat → Nat → Mx Mixed.ieee) :
    ∃ out, modis1kmTo250m (mcRounded Mixed.ieee) ⟨1 * 10, 1354, fun _ _ => sgl 10⟩ ⟨1 * 10, 1354, fun _ _ => sgl 60⟩ junk = .ok out ∧
      (∃ L, out.1.cell 0 5415 = sgl L ∧ LonWithin 0.002 L 10) ∧ ∃ B, out.2.cell 0 5415 = sgl B ∧ |B - 60| ≤ 0.002 := by
  obtain ⟨out, h1, h2⟩ := C75_simple_pixel prec_ieee lib_ieee (by norm_num) (mcRounded_ok Mixed.ieee) .km1to250 1 1354 (by norm_num)
    (by show 4 * 1354 ≤ 2 ^ 24; norm_num) (fun _ _ => 10) (fun _ _ => 60) junk
  refine ⟨out, h1, ?_⟩
  obtain ⟨δ, hδ⟩ : ∃ δ, δ = rowErr (1 / 2 ^ 24) (1 + 6 * (1 / 2 ^ 24)) (0 + 12 * (1 / 2 ^ 24)) 4 0
      (colErr (1 / 2 ^ 24) (1 + 6 * (1 / 2 ^ 24)) (0 + 12 * (1 / 2 ^ 24)) 4 1354 5415 (Mixed.ieee.s.u * (1 + 6 * (1 / 2 ^ 24))))
      + 6 * (1 / 2 ^ 24) * ((|(-0.375 : ℝ)| + |1 - (-0.375 : ℝ)|) * (|(1.75 : ℝ)| + |1 - (1.75 : ℝ)|)) := ⟨_, rfl⟩
  have u24 : Mixed.ieee.s.u = 1 / 2 ^ 24 := by
    show (2 : ℝ) ^ (-((24 : ℕ) : ℤ)) = _
    rw [zpow_neg, zpow_natCast]; norm_num
  have hδ1 : δ ≤ 0.0000042 := by
    rw [hδ, u24]
    norm_num [rowErr, colErr, abs_of_neg, abs_of_pos]
  have hcos : Real.cos (rad 60) = 1 / 2 := by
    rw [show rad 60 = Real.pi / 3 by unfold rad; ring, Real.cos_pi_div_three]
  obtain ⟨η', hη'⟩ : ∃ η' : ℝ, η' = 0 + 1.42 * δ / Real.cos (rad 60) := ⟨_, rfl⟩
  have hη1 : η' ≤ 0.000012 := by
    rw [hη', hcos]
    norm_num at hδ1 ⊢
    linarith
  have hsq : √(1 / 2 ^ 53 : ℝ) ≤ 1 / 2 ^ 26 := by
    rw [Real.sqrt_le_left (by positivity)]
    norm_num
  obtain ⟨⟨L, l1, l2⟩, B, b1, b2⟩ := h2 0 0 5415 0 1352 (by decide) (by decide) (by decide) (by decide) (by decide)
    (fun _ _ _ _ => by norm_num [abs_le]) 0 (by intro l; simp) (-0.375) 1.75 δ 0 η' 10 60 (by norm_num [SConv.factor]) (by norm_num [SConv.factor]) hδ
    (by norm_num) (by norm_num) (by
      unfold cellPoint NearSphere
      have : ∀ T S x : ℝ, (1 - T) * ((1 - S) * x + S * x) + T * ((1 - S) * x + S * x) = x := by intro T S x; ring
      simp only [this]
      simp [coord]) hη' (by norm_num at hη1 ⊢; linarith)
  refine ⟨⟨L, l1, ?_⟩, B, b1, b2.trans ?_⟩
  · rcases l2 with ⟨m, m1, m2⟩ | ⟨-, m2⟩
    · refine ⟨m, m1, m2.trans ?_⟩
      generalize √(1 / 2 ^ 53 : ℝ) = x at hsq
      norm_num at hη1 hsq ⊢
      linarith
    · norm_num at hη1 m2
      linarith
  · norm_num at hη1 ⊢
    linarith

/-! ### float64 arrays

For float64 arrays `floating` is `double`: both formats of the model are then the same. -/

/-- both types `double` (correctly rounded functions, to show that there is such a format) -/
noncomputable def Mixed.double : Mixed := ⟨Rounding.correct 53 (by norm_num), Rounding.correct 53 (by norm_num), le_refl _⟩

theorem lib_double : LibRel Mixed.double.d (1 / 2 ^ 53) := lib_ieee

/-- the accuracy assumed by C68, C69 and C75, in double precision -/
theorem prec_double : Prec Mixed.double (1 / 2 ^ 43) := by
  have u53 : Mixed.double.s.u = 1 / 2 ^ 53 := by
    show (2 : ℝ) ^ (-((53 : ℕ) : ℤ)) = _
    rw [zpow_neg, zpow_natCast]; norm_num
  have hl := lib_double
  have hu : (1 / 2 ^ 53 : ℝ) ≤ 1 / 2 ^ 43 / 1000 := by norm_num
  exact ⟨by show 12 ≤ 53; norm_num, by rw [u53]; norm_num, ⟨hl.u.trans hu, fun x => (hl.sin x).mono hu, fun x => (hl.cos x).mono hu,
    fun x hx => (hl.asin x hx).mono hu, fun x hx => (hl.acos x hx).mono hu⟩, by norm_num⟩

/-- One scan of 1354 columns, 1 km to 250 m, all tie points at 10 degrees east, 60 degrees north: the pixel in the first row and last
column, extrapolated in both directions, with float64 arrays:
latitude within 3 billionths of a degree, longitude within 0.000005 degrees. -/
example (junk : Nat → Nat → Nat → Nat → Mx Mixed.double) :
    ∃ out, modis1kmTo250m (mcRounded Mixed.double) ⟨1 * 10, 1354, fun _ _ => sgl 10⟩ ⟨1 * 10, 1354, fun _ _ => sgl 60⟩ junk = .ok out ∧
      (∃ L, out.1.cell 0 5415 = sgl L ∧ LonWithin 0.000005 L 10) ∧ ∃ B, out.2.cell 0 5415 = sgl B ∧ |B - 60| ≤ 0.000000003 := by
  obtain ⟨out, h1, h2⟩ := C75_simple_pixel prec_double lib_double (by norm_num) (mcRounded_ok Mixed.double) .km1to250 1 1354 (by norm_num)
    (by show 4 * 1354 ≤ 2 ^ 53; norm_num) (fun _ _ => 10) (fun _ _ => 60) junk
  refine ⟨out, h1, ?_⟩
  obtain ⟨δ, hδ⟩ : ∃ δ, δ = rowErr (1 / 2 ^ 43) (1 + 6 * (1 / 2 ^ 43)) (0 + 12 * (1 / 2 ^ 43)) 4 0
      (colErr (1 / 2 ^ 43) (1 + 6 * (1 / 2 ^ 43)) (0 + 12 * (1 / 2 ^ 43)) 4 1354 5415 (Mixed.double.s.u * (1 + 6 * (1 / 2 ^ 43))))
      + 6 * (1 / 2 ^ 43) * ((|(-0.375 : ℝ)| + |1 - (-0.375 : ℝ)|) * (|(1.75 : ℝ)| + |1 - (1.75 : ℝ)|)) := ⟨_, rfl⟩
  have u53 : Mixed.double.s.u = 1 / 2 ^ 53 := by
    show (2 : ℝ) ^ (-((53 : ℕ) : ℤ)) = _
    rw [zpow_neg, zpow_natCast]; norm_num
  have hδ1 : δ ≤ 0.0000000000045 := by
    rw [hδ, u53]
    norm_num [rowErr, colErr, abs_of_neg, abs_of_pos]
  have hcos : Real.cos (rad 60) = 1 / 2 := by
    rw [show rad 60 = Real.pi / 3 by unfold rad; ring, Real.cos_pi_div_three]
  obtain ⟨η', hη'⟩ : ∃ η' : ℝ, η' = 0 + 1.42 * δ / Real.cos (rad 60) := ⟨_, rfl⟩
  have hη1 : η' ≤ 0.000000000013 := by
    rw [hη', hcos]
    norm_num at hδ1 ⊢
    linarith
  have hsq : √(1 / 2 ^ 53 : ℝ) ≤ 1 / 2 ^ 26 := by
    rw [Real.sqrt_le_left (by positivity)]
    norm_num
  obtain ⟨⟨L, l1, l2⟩, B, b1, b2⟩ := h2 0 0 5415 0 1352 (by decide) (by decide) (by decide) (by decide) (by decide)
    (fun _ _ _ _ => by norm_num [abs_le]) 0 (by intro l; simp) (-0.375) 1.75 δ 0 η' 10 60 (by norm_num [SConv.factor]) (by norm_num [SConv.factor]) hδ
    (by norm_num) (by norm_num) (by
      unfold cellPoint NearSphere
      have : ∀ T S x : ℝ, (1 - T) * ((1 - S) * x + S * x) + T * ((1 - S) * x + S * x) = x := by intro T S x; ring
      simp only [this]
      simp [coord]) hη' (by norm_num at hη1 ⊢; linarith)
  refine ⟨⟨L, l1, ?_⟩, B, b1, b2.trans ?_⟩
  · rcases l2 with ⟨m, m1, m2⟩ | ⟨-, m2⟩
    · refine ⟨m, m1, m2.trans ?_⟩
      generalize √(1 / 2 ^ 53 : ℝ) = x at hsq
      norm_num at hη1 hsq ⊢
      linarith
    · norm_num at hη1 m2
      linarith
  · norm_num at hη1 ⊢
    linarith

end Verif.Props
