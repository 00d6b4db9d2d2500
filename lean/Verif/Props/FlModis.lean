import Verif.Props.Modis
import Verif.Props.FlGeo
import Verif.Proofs.FlLin
import Verif.Proofs.FlCoef

/-!
# C60, C61: MODIS interpolation with rounding
-/

set_option linter.unusedSectionVars false

namespace Verif.Props
open Verif Verif.Modis Verif.Spec.Modis Verif.Geo Fl
variable {r : Rounding}

theorem isNum_mul {x y : Fl r} (hx : IsNum x) (hy : IsNum y) : IsNum (x * y) := by
  obtain ⟨a, _, rfl⟩ := hx
  obtain ⟨b, _, rfl⟩ := hy
  exact ⟨_, r.rep _, rfl⟩

theorem isNum_add {x y : Fl r} (hx : IsNum x) (hy : IsNum y) : IsNum (x + y) := by
  obtain ⟨a, _, rfl⟩ := hx
  obtain ⟨b, _, rfl⟩ := hy
  exact ⟨_, r.rep _, rfl⟩

theorem isNum_sub {x y : Fl r} (hx : IsNum x) (hy : IsNum y) : IsNum (x - y) := by
  obtain ⟨a, _, rfl⟩ := hx
  obtain ⟨b, _, rfl⟩ := hy
  exact ⟨_, r.rep _, rfl⟩

theorem isNum_sin {x : Fl r} (hx : IsNum x) : IsNum (Trig.sin x) := by
  obtain ⟨a, _, rfl⟩ := hx
  exact ⟨_, r.sin_rep _, rfl⟩

theorem isNum_cos {x : Fl r} (hx : IsNum x) : IsNum (Trig.cos x) := by
  obtain ⟨a, _, rfl⟩ := hx
  exact ⟨_, r.cos_rep _, rfl⟩

theorem isNum_ofInt (n : Int) : IsNum (Arith.ofInt n : Fl r) := ⟨_, r.rep _, rfl⟩

theorem isNum_lit (m e : Nat) : IsNum (Arith.lit m e : Fl r) := ⟨_, r.rep _, rfl⟩

theorem isNum_div {x y : Fl r} (hx : IsNum x) (hy : IsNum y) (h : y ≠ val 0) : IsNum (x / y) := by
  obtain ⟨a, _, rfl⟩ := hx
  obtain ⟨b, _, rfl⟩ := hy
  rw [val_div_of_ne _ (fun e => h (by rw [e]))]
  exact ⟨_, r.rep _, rfl⟩

theorem isNum_deg2rad {x : Fl r} (hx : IsNum x) : IsNum (deg2rad x) := by
  refine isNum_mul hx (isNum_div ⟨_, r.rep _, rfl⟩ (isNum_ofInt 180) ?_)
  intro h
  have h' : (Fl.val (r.rnd (((180 : ℕ) : ℤ) : ℝ)) : Fl r) = Fl.val 0 := h
  rw [Fl.val.injEq, r.rnd_eq_zero] at h'
  norm_num at h'

theorem isNum_ties {lon lat : Nat → Nat → Fl r} {i j : Nat} (h1 : IsNum (lon i j)) (h2 : IsNum (lat i j)) (k : Nat) :
    IsNum (ties lon lat i j k) := by
  unfold ties tieXyz comp cyLonlat2xyz
  have hR : IsNum (earthRadius : Fl r) := isNum_lit _ _
  have c1 := isNum_cos (isNum_deg2rad h2)
  have c2 := isNum_cos (isNum_deg2rad h1)
  have c3 := isNum_sin (isNum_deg2rad h2)
  have c4 := isNum_sin (isNum_deg2rad h1)
  by_cases e0 : k = 0
  · simp only [e0, if_true]; exact isNum_mul (isNum_mul hR c1) c2
  · by_cases e1 : k = 1
    · subst e1; simp only [show ¬ (1 : Nat) = 0 by omega, if_false, if_true]; exact isNum_mul (isNum_mul hR c1) c4
    · simp only [e0, e1, if_false]; exact isNum_mul hR c3

/-! ### C60 -/

private theorem rnd5 (hp : 3 ≤ r.p) : r.rnd 5 = 5 := by
  have := rep_int r.hp1 (m := 5) (by
    have : (2 : ℤ) ^ 3 ≤ 2 ^ r.p := pow_le_pow_right₀ (by norm_num) hp
    rw [abs_of_nonneg (by norm_num)]
    exact le_trans (by norm_num) this)
  exact r.rnd_rep (by simpa using this)

/-- column position of a tie point within its cell: exactly 0, or exactly 1 in the last column -/
theorem fl_tie_x (hp : 3 ≤ r.p) {w j : Nat} (hw : w = 270 ∨ w = 271) (hj : j < w) :
    (getCoords (Conv.km5to1.cfg w)).1.cell (5 * j + 2) / Arith.ofInt ((5 : Nat) : Int)
      = (val (if j + 1 = w then 1 else 0) : Fl r) := by
  have h5 : (Arith.ofInt ((5 : Nat) : Int) : Fl r) = val 5 := by
    rw [ofInt_eq]; push_cast; rw [rnd5 hp]
  have h5' : (Arith.ofInt (5 : Int) : Fl r) = val 5 := h5
  have e : (getCoords (Conv.km5to1.cfg w)).1.cell (5 * j + 2) = (val (if j + 1 = w then 5 else 0) : Fl r) := by
    show coordX5km (Conv.km5to1.cfg w) (5 * j + 2) = _
    unfold coordX5km
    have hf : (Conv.km5to1.cfg w).fineWidth = 1354 := rfl
    have hww : (Conv.km5to1.cfg w).width = w := rfl
    have hff : (Conv.km5to1.cfg w).f = 5 := rfl
    simp only [hf, hww, hff]
    have hmod : (((5 * j + 2 : Nat) : Int) - 2) % ((5 : Nat) : Int) = 0 := by push_cast; omega
    rcases hw with rfl | rfl
    · rw [if_neg (by omega)]
      by_cases hl : j + 1 = 270
      · rw [if_pos (by omega), if_pos hl, ← h5']
        congr 1
        push_cast; omega
      · rw [if_neg (by omega), if_neg (by omega), if_neg (by omega), if_neg hl, hmod, ofInt_eq]
        simp
    · rw [if_pos rfl, if_neg (by omega)]
      by_cases hl : j + 1 = 271
      · rw [if_pos (by omega), if_pos hl, ← h5']; rfl
      · rw [if_neg (by omega), if_neg (by omega), if_neg (by omega), if_neg hl, hmod, ofInt_eq]
        simp
  rw [e, h5, val_div_of_ne _ (by norm_num)]
  by_cases hl : j + 1 = w <;> simp [hl]

theorem fl_tie_y (hp : 3 ≤ r.p) {w a : Nat} (ha : a < 2) :
    (getCoords (Conv.km5to1.cfg w)).2.cell (5 * a + 2) / Arith.ofInt ((5 : Nat) : Int)
      = (val (if a = 1 then 1 else 0) : Fl r) := by
  have h5 : (Arith.ofInt ((5 : Nat) : Int) : Fl r) = val 5 := by
    rw [ofInt_eq]; push_cast; rw [rnd5 hp]
  have e : (getCoords (Conv.km5to1.cfg w)).2.cell (5 * a + 2) = (Arith.ofInt (((5 * a + 2 : Nat) : Int) - 2) : Fl r) := rfl
  rw [e, h5, ofInt_eq, val_div_of_ne _ (by norm_num)]
  have h01 : a = 0 ∨ a = 1 := by omega
  rcases h01 with rfl | rfl
  · simp
  · norm_num [rnd5 hp]

/-- with the weights 0 or 1 the coefficients do not matter -/
theorem fl_atrack_corner {f : Nat} {x y ce ca : Fl r} {s t : ℝ} (hs : s = 0 ∨ s = 1) (ht : t = 0 ∨ t = 1)
    (hx : x / Arith.ofInt (f : Int) = val s) (hy : y / Arith.ofInt (f : Int) = val t) (h1 : IsNum ce) (h2 : IsNum ca) :
    atrackAscan f x y ce ca = (val t, val s) := by
  obtain ⟨e, _, rfl⟩ := h1
  obtain ⟨a, _, rfl⟩ := h2
  unfold atrackAscan
  rw [hx, hy, one_eq]
  rcases hs with rfl | rfl <;> rcases ht with rfl | rfl <;> simp

/-- **C60 (MODIS 5 km to 1 km)**: with any rounding (at least 3 bits) and any library, the cartesian interpolation reproduces
the tie points bit for bit: the pixel of a tie point (rows 2, 7, 12, …, columns 2, 7, …) gets exactly the result of
converting the tie point to cartesian coordinates and back.  For whole scans with 270 or 271 columns, tie points that are
numbers in the cell of the pixel, and zenith angles with numeric coefficients. -/
theorem C60_modis_5km (hp : 3 ≤ r.p) (n w : Nat) (hw : w = 270 ∨ w = 271) (lon lat satz : Nat → Nat → Fl r)
    (junk : Nat → Nat → Nat → Nat → Fl r) :
    ∃ out, modis5kmTo1km ⟨n * 2, w, lon⟩ ⟨n * 2, w, lat⟩ ⟨n * 2, w, satz⟩ junk = .ok out ∧
      ∀ i j, i < n * 2 → j < w →
        (∀ a b, (a = i / 2 * 2 ∨ a = i / 2 * 2 + 1) → (b = min j (w - 2) ∨ b = min j (w - 2) + 1) →
          IsNum (lon a b) ∧ IsNum (lat a b)) →
        (let ea := expansionAlignment 5 (satz (i / 2 * 2) (min j (w - 2))) (satz (i / 2 * 2) (min j (w - 2) + 1))
         IsNum ea.1 ∧ IsNum ea.2) →
        (out.1.cell (5 * i + 2) (5 * j + 2), out.2.cell (5 * i + 2) (5 * j + 2))
          = cyXyz2lonlat earthRadius cyThr true (cyLonlat2xyz earthRadius (lon i j) (lat i j)) := by
  obtain ⟨out, e, p1, p2⟩ := run_pixel .km5to1 (n := n) (lon := ⟨n * 2, w, lon⟩)
    (lat := ⟨n * 2, w, lat⟩) (satz := ⟨n * 2, w, satz⟩) ⟨hw, rfl, rfl, rfl, rfl, rfl⟩ junk
  refine ⟨out, e, fun i j hi hj hties hnum => ?_⟩
  simp only [Conv.scanRows, Conv.factor, Conv.outCols] at p1 p2
  have hr : 5 * i + 2 < n * 2 * 5 := by omega
  have hc : 5 * j + 2 < 1354 := by omega
  rw [p1.cell _ _ hr hc trivial, p2.cell _ _ hr hc trivial]
  show pixel (Conv.km5to1.cfg w) lon lat satz (5 * i + 2) (5 * j + 2) = _
  unfold pixel
  simp only [Conv.cfg]
  rw [show (5 * i + 2) / (2 * 5) * 2 = i / 2 * 2 by omega,
    show (5 * i + 2) % (2 * 5) = 5 * (i % 2) + 2 by omega]
  have hcr : cellRow (Conv.km5to1.cfg w) (5 * (i % 2) + 2) = 0 := rfl
  have hcc : cellCol (Conv.km5to1.cfg w) (5 * j + 2) = min j (w - 2) := by
    simp only [cellCol, Conv.cfg, show ¬ ((2:Nat) = 10) by omega, if_false]
    rw [show (5 * j + 2 - 2) / 5 = j by omega]
  set s : ℝ := if j + 1 = w then 1 else 0 with hs'
  set t : ℝ := if i % 2 = 1 then 1 else 0 with ht'
  have hs : s = 0 ∨ s = 1 := by rw [hs']; split <;> simp
  have ht : t = 0 ∨ t = 1 := by rw [ht']; split <;> simp
  have hts : trackScan (Conv.km5to1.cfg w) satz (i / 2 * 2) (5 * (i % 2) + 2) (5 * j + 2) = (val t, val s) := by
    unfold trackScan
    simp only [hcr, hcc, Nat.add_zero]
    rw [show (Conv.km5to1.cfg w).perKm = 5 from rfl, show (Conv.km5to1.cfg w).f = 5 from rfl]
    exact fl_atrack_corner hs ht (fl_tie_x hp hw hj) (fl_tie_y hp (Nat.mod_lt _ (by omega))) hnum.1 hnum.2
  have hcomp : ∀ k, fineXyz (Conv.km5to1.cfg w) (ties lon lat) satz (i / 2 * 2) (5 * (i % 2) + 2) (5 * j + 2) k
      = ties lon lat i j k := by
    intro k
    unfold fineXyz
    simp only [hts, hcr, hcc, Nat.add_zero]
    have hT : ∀ a b, (a = i / 2 * 2 ∨ a = i / 2 * 2 + 1) → (b = min j (w - 2) ∨ b = min j (w - 2) + 1) →
        IsNum (ties lon lat a b k) := fun a b ha hb => isNum_ties (hties a b ha hb).1 (hties a b ha hb).2 k
    obtain ⟨va, ra, ea⟩ := hT _ _ (Or.inl rfl) (Or.inl rfl)
    obtain ⟨vb, rb, eb⟩ := hT _ _ (Or.inl rfl) (Or.inr rfl)
    obtain ⟨vc, rc, ec⟩ := hT _ _ (Or.inr rfl) (Or.inr rfl)
    obtain ⟨vd, rd, ed⟩ := hT _ _ (Or.inr rfl) (Or.inl rfl)
    rw [ea, eb, ec, ed, fineComponent_corner ht hs ra rb rc rd]
    have hi01 := Nat.mod_two_eq_zero_or_one i
    by_cases hl : j + 1 = w
    · have hm : min j (w - 2) + 1 = j := by omega
      rw [hm] at eb ec
      have hs1 : s = 1 := by rw [hs', if_pos hl]
      rcases hi01 with h0 | h0
      · have ht0 : t = 0 := by rw [ht', if_neg (by omega)]
        rw [hs1, ht0, show i / 2 * 2 = i by omega] at *
        simp [eb]
      · have ht0 : t = 1 := by rw [ht', if_pos h0]
        rw [hs1, ht0]
        rw [show i / 2 * 2 + 1 = i by omega] at ec
        simp [ec]
    · have hm : min j (w - 2) = j := by omega
      rw [hm] at ea ed
      have hs1 : s = 0 := by rw [hs', if_neg hl]
      rcases hi01 with h0 | h0
      · have ht0 : t = 0 := by rw [ht', if_neg (by omega)]
        rw [hs1, ht0]
        rw [show i / 2 * 2 = i by omega] at ea
        simp [ea]
      · have ht0 : t = 1 := by rw [ht', if_pos h0]
        rw [hs1, ht0]
        rw [show i / 2 * 2 + 1 = i by omega] at ed
        simp [ed]
  show scanPixel (Conv.km5to1.cfg w) (ties lon lat) satz (i / 2 * 2) (5 * (i % 2) + 2) (5 * j + 2) = _
  unfold scanPixel
  rw [hcomp 0, hcomp 1, hcomp 2]
  rfl

/-! ### C61 -/

/-- a component of a fine pixel -/
theorem fineComponent_bound (hp : 4 ≤ r.p) (t s a b c d : ℝ) (ht : 0 ≤ t ∧ t ≤ 1) (hs : 0 ≤ s ∧ s ≤ 1) {M : ℝ}
    (ha : |a| ≤ M) (hb : |b| ≤ M) (hc : |c| ≤ M) (hd : |d| ≤ M) :
    ∃ v, fineComponent (val t) (val s) (val a) (val b) (val c) (val d) = (val v : Fl r) ∧
      |v - ((1 - t) * ((1 - s) * a + s * b) + t * ((1 - s) * d + s * c))| ≤ 12 * r.u * M := by
  obtain ⟨v, hv, h1, _⟩ := fineComponent_err (r := r) t s a b c d
  refine ⟨v, hv, h1.trans ?_⟩
  have hM0 : 0 ≤ M := (abs_nonneg _).trans ha
  have hu : 2 * (6 : ℕ) * r.u ≤ 1 := by
    have : r.u ≤ 1 / 16 := by
      unfold Rounding.u
      have : (2 : ℝ) ^ (-(r.p : ℤ)) ≤ 2 ^ (-4 : ℤ) := zpow_le_zpow_right₀ (by norm_num) (by omega)
      exact this.trans (by norm_num)
    push_cast; linarith
  have h2 := pow_u_le (r := r) 6 hu
  rw [abs_of_nonneg (by linarith : 0 ≤ 1 - t), abs_of_nonneg (by linarith : 0 ≤ 1 - s), abs_of_nonneg ht.1, abs_of_nonneg hs.1]
  have hrow : ∀ A B : ℝ, |A| ≤ M → |B| ≤ M → (1 - s) * |A| + s * |B| ≤ M := by
    intro A B hA hB
    nlinarith [mul_le_mul_of_nonneg_left hA (by linarith : 0 ≤ 1 - s), mul_le_mul_of_nonneg_left hB hs.1]
  have hm : (1 - t) * ((1 - s) * |a| + s * |b|) + t * ((1 - s) * |d| + s * |c|) ≤ M := by
    nlinarith [mul_le_mul_of_nonneg_left (hrow _ _ ha hb) (by linarith : 0 ≤ 1 - t),
      mul_le_mul_of_nonneg_left (hrow _ _ hd hc) ht.1]
  have h3 : 0 ≤ (1 + r.u) ^ 6 - 1 := by
    have := one_le_pow_u (r := r) 6
    linarith
  calc _ ≤ ((1 + r.u) ^ 6 - 1) * M := mul_le_mul_of_nonneg_left hm h3
    _ ≤ (2 * (6 : ℕ) * r.u) * M := mul_le_mul_of_nonneg_right h2 hM0
    _ = _ := by push_cast; ring

/-- **C61 (MODIS, for given weights)**: with rounding, each cartesian coordinate of a fine pixel, computed from the weights `t`, `s` of the
pixel in [0, 1] and tie point coordinates of at most `M`, is within `12 u M` of the exact bilinear combination with these
weights; for every conversion and pixel, at least 4 bits.  For float32 and the radius of the Earth 4.6 metres, for doubles
1e-8 metres.  The error of the weights: C68, `C61_modis_mixed`. -/
theorem C61_modis_given_weights (hp : 4 ≤ r.p) (cfg : Cfg) (X : Nat → Nat → Nat → ℝ) (satz : Nat → Nat → Fl r) (i0 row col k : Nat)
    (t s M : ℝ) (hts : trackScan cfg satz i0 row col = (val t, val s)) (ht : 0 ≤ t ∧ t ≤ 1) (hs : 0 ≤ s ∧ s ≤ 1)
    (hM : ∀ i j, |X i j k| ≤ M) :
    ∃ v, fineXyz cfg (fun i j k => val (X i j k)) satz i0 row col k = (val v : Fl r) ∧
      |v - ((1 - t) * ((1 - s) * X (i0 + cellRow cfg row) (cellCol cfg col) k
              + s * X (i0 + cellRow cfg row) (cellCol cfg col + 1) k)
            + t * ((1 - s) * X (i0 + cellRow cfg row + 1) (cellCol cfg col) k
              + s * X (i0 + cellRow cfg row + 1) (cellCol cfg col + 1) k))| ≤ 12 * r.u * M := by
  unfold fineXyz
  simp only [hts]
  exact fineComponent_bound hp t s _ _ _ _ ht hs (hM _ _) (hM _ _) (hM _ _) (hM _ _)

example (satz : Nat → Nat → Fl (Rounding.correct 24 (by norm_num)))
    (h : trackScan (Conv.km5to1.cfg 271) satz 0 4 10 = (val (2 / 5), val (3 / 5))) :=
  C61_modis_given_weights (by show 4 ≤ 24; norm_num) _ (fun i j k => ((i + j + k) % 3 : ℕ)) satz 0 4 10 1 _ _ 2 h (by norm_num) (by norm_num)
    (by
      intro i j
      rw [abs_of_nonneg (by positivity)]
      have : (i + j + 1) % 3 ≤ 2 := by omega
      exact_mod_cast this)

/-! ### C62 -/

private theorem four_num : IsNum (4 : Fl r) := isNum_ofInt 4

/-- **C62**: with any rounding of at least 12 bits and a library accurate to 0.1 %, for zenith angles of at most 70 degrees
in absolute value and fine pixels of at most 50 per coarse pixel (the code uses 1 and 5), the two coefficients are numbers
exactly if the two zenith angles are not both 0: no other pair of angles, however close, makes a denominator vanish or the
argument of an arc sine or a root leave its domain. -/
theorem C62_coefficients (hp : 12 ≤ r.p) (hl : LibAcc r) (w : Nat) (hw : w ≤ 50) (a b : ℝ) (ha : |a| ≤ 70) (hb : |b| ≤ 70) :
    (IsNum (expansionAlignment w (val a) (val b) : Fl r × Fl r).1 ↔ ¬ (a = 0 ∧ b = 0)) ∧
    (IsNum (expansionAlignment w (val a) (val b) : Fl r × Fl r).2 ↔ ¬ (a = 0 ∧ b = 0)) := by
  obtain ⟨x, ex, rx, hx, x0⟩ := deg2rad_num hp a ha
  obtain ⟨y, ey, ry, hy, y0⟩ := deg2rad_num hp b hb
  obtain ⟨f, ef, rf, hf, hf'⟩ := phi_num hp hl x hx
  obtain ⟨g, eg, rg, hg, hg'⟩ := phi_num hp hl y hy
  obtain ⟨m, z, em, ez, rz, hz⟩ := zeta_num hp hl hf' hg'
  obtain ⟨s, rs, es⟩ := root_num hp hl hw m hz
  have h2 : (2 : Fl r) = val 2 := by
    have := ofNat_of_rep (r := r) 2 (by exact_mod_cast FlGeo.rep_small (r := r) (by omega) (n := 2) (by norm_num))
    simpa using this
  set ta := r.rnd (x - f) with hta
  set tb := r.rnd (y - g) with htb
  -- an angle is 0 only if the zenith angle is
  have theta0 : ∀ {x f : ℝ}, |f| ≤ 0.92 * |x| → r.rnd (x - f) = 0 → x = 0 := by
    intro x f h e
    rw [r.rnd_eq_zero, sub_eq_zero] at e
    rw [← e] at h
    by_contra hne
    have := abs_pos.2 hne
    linarith
  set den : Fl r := if Arith.eq (val ta : Fl r) (val tb) then val ta * 2 else val ta - val tb with hden
  have key : IsNum den ∧ (den = val 0 ↔ (a = 0 ∧ b = 0)) := by
    rw [hden, eq_val]
    by_cases e : ta = tb
    · rw [if_pos (by simpa using e), h2, val_mul]
      refine ⟨⟨_, r.rep _, rfl⟩, ?_⟩
      rw [Fl.val.injEq, r.rnd_eq_zero]
      constructor
      · intro h
        have h0 : ta = 0 := by linarith
        exact ⟨x0.1 (theta0 hf h0), y0.1 (theta0 hg (by rw [← htb, ← e]; exact h0))⟩
      · rintro ⟨h, -⟩
        rw [x0.2 h] at hf hta
        have : f = 0 := by simpa using hf
        rw [hta, this]; simp
    · rw [if_neg (by simpa using e), val_sub]
      refine ⟨⟨_, r.rep _, rfl⟩, ?_⟩
      rw [Fl.val.injEq, r.rnd_eq_zero, sub_eq_zero]
      refine ⟨fun h => absurd h e, ?_⟩
      rintro ⟨h, h'⟩
      exfalso
      rw [x0.2 h] at hf hta
      rw [y0.2 h'] at hg htb
      have f0 : f = 0 := by simpa using hf
      have g0 : g = 0 := by simpa using hg
      exact e (by rw [hta, htb, f0, g0])
  have e : (expansionAlignment w (val a) (val b) : Fl r × Fl r)
      = (4 * (((val ta + val tb) / 2 - (val z - val m)) / den), 4 * (Trig.cos (val z) - val s) * Trig.sin (val z) / den) := by
    unfold expansionAlignment
    simp only [toFloating_eq, ex, ey, ef, eg, em, ez, computeTheta, val_sub x, val_sub y, ← hta, ← htb, ← hden]
    simp only at es
    rw [es]
  have nz : IsNum (val z : Fl r) := ⟨z, rz, rfl⟩
  have ns : IsNum (val s : Fl r) := ⟨s, rs, rfl⟩
  have n1 : IsNum (((val ta + val tb) / 2 - (val z - val m) : Fl r)) := by
    refine isNum_sub (isNum_div ⟨_, r.rep _, rfl⟩ (isNum_ofInt 2) ?_) ⟨_, r.rep _, rfl⟩
    show (2 : Fl r) ≠ _
    rw [h2, ne_eq, Fl.val.injEq]; norm_num
  have n2 : IsNum ((4 * (Trig.cos (val z) - val s) * Trig.sin (val z) : Fl r)) :=
    isNum_mul (isNum_mul four_num (isNum_sub (isNum_cos nz) ns)) (isNum_sin nz)
  rw [e]
  have nbad : ¬ IsNum (bad : Fl r) := by rintro ⟨q, _, hq⟩; cases hq
  have dbad : ∀ q : Fl r, q / val 0 = bad := by
    intro q; cases q
    · rw [val_div, if_pos rfl]
    · rfl
  have mbad : ∀ q : Fl r, q * bad = bad := by intro q; cases q <;> rfl
  constructor
  · constructor
    · intro h h0
      simp only [key.2.2 h0, dbad, mbad] at h
      exact nbad h
    · intro h
      exact isNum_mul four_num (isNum_div n1 key.1 (fun h0 => h (key.2.1 h0)))
  · constructor
    · intro h h0
      simp only [key.2.2 h0, dbad] at h
      exact nbad h
    · intro h
      exact isNum_div n2 key.1 (fun h0 => h (key.2.1 h0))

/-- equal angles, doubles -/
example : IsNum (expansionAlignment 5 (val 30) (val 30) : Fl (Rounding.correct 53 (by norm_num)) × _).1 :=
  (C62_coefficients (by show 12 ≤ 53; norm_num) (libAcc_correct 53 (by norm_num)) 5 (by norm_num) 30 30
    (by norm_num [abs_le]) (by norm_num [abs_le])).1.2 (by norm_num)

/-- angles that differ in the last bit -/
example : IsNum (expansionAlignment 1 (val 1) (val (1 + 1 / 2 ^ 23)) : Fl (Rounding.correct 24 (by norm_num)) × _).2 :=
  (C62_coefficients (by show 12 ≤ 24; norm_num) (libAcc_correct 24 (by norm_num)) 1 (by norm_num) _ _
    (by norm_num [abs_le]) (by norm_num [abs_le])).2.2 (by norm_num)

/-- two ties in float32, all hypotheses of `C60_modis_5km` met -/
example (junk : Nat → Nat → Nat → Nat → Fl (Rounding.correct 24 (by norm_num))) :
    ∃ out, modis5kmTo1km ⟨1 * 2, 271, fun i j => val ((j : ℝ) + i)⟩ ⟨1 * 2, 271, fun i _ => val (50 + (i : ℝ))⟩
        ⟨1 * 2, 271, fun _ _ => val 30⟩ junk = .ok out ∧
      (out.1.cell 7 1352, out.2.cell 7 1352) = cyXyz2lonlat earthRadius cyThr true
        (cyLonlat2xyz earthRadius (val ((270 : ℕ) + (1 : ℕ) : ℝ)) (val (50 + (1 : ℕ)))) := by
  obtain ⟨out, h1, h2⟩ := C60_modis_5km (r := Rounding.correct 24 (by norm_num)) (by show 3 ≤ 24; norm_num) 1 271 (Or.inr rfl)
    (fun i j => val ((j : ℝ) + i)) (fun i _ => val (50 + (i : ℝ))) (fun _ _ => val 30) junk
  refine ⟨out, h1, h2 1 270 (by norm_num) (by norm_num) ?_ ?_⟩
  · intro a b ha hb
    have hrep : ∀ n : ℕ, n ≤ 2 ^ 24 → Rep (Rounding.correct 24 (by norm_num)).p (n : ℝ) := by
      intro n hn
      have := rep_int (p := 24) (by norm_num) (m := (n : ℤ)) (by rw [abs_of_nonneg (by positivity)]; exact_mod_cast hn)
      exact_mod_cast this
    refine ⟨⟨_, ?_, rfl⟩, ⟨_, ?_, rfl⟩⟩
    · have := hrep (b + a) (by simp at ha hb; omega)
      exact_mod_cast this
    · have := hrep (50 + a) (by simp at ha; omega)
      exact_mod_cast this
  · have := C62_coefficients (r := Rounding.correct 24 (by norm_num)) (by show 12 ≤ 24; norm_num)
      (libAcc_correct 24 (by norm_num)) 5 (by norm_num) 30 30 (by norm_num [abs_le]) (by norm_num [abs_le])
    exact ⟨this.1.2 (by norm_num), this.2.2 (by norm_num)⟩

end Verif.Props
