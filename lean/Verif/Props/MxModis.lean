import Verif.Proofs.MxModis
import Verif.Proofs.MxCoef
import Verif.Props.MxGeo
import Verif.Props.FlModis

/-!
# C60, C61, C62: the MODIS interpolation in mixed precision

`Mx q` is the arithmetic the code really runs on: float32 arrays and variables, double constants and library functions (see
`Verif/Base/Mx.lean`).
-/

set_option linter.unusedSectionVars false

namespace Verif.Props
open Verif Verif.Modis Verif.Spec.Modis Verif.Geo Mx
variable {q : Mixed}

theorem isF_ties {lon lat : Nat → Nat → Mx q} {i j : Nat} (h1 : IsF (lon i j)) (h2 : IsF (lat i j)) (k : Nat) :
    IsF (ties lon lat i j k) := by
  obtain ⟨a, b, c⟩ := isF_cyLonlat2xyz h1 h2
  unfold ties tieXyz comp
  by_cases e0 : k = 0
  · simp only [e0, if_true]; exact a
  · by_cases e1 : k = 1
    · subst e1; simp only [show ¬ (1 : Nat) = 0 by omega, if_false, if_true]; exact b
    · simp only [e0, e1, if_false]; exact c

/-- the weights of a tie point -/
private theorem trackScan_tie (hp : 3 ≤ q.s.p) {w : Nat} (hw : w = 270 ∨ w = 271) (satz : Nat → Nat → Mx q) {i0 a j : Nat}
    (ha : a < 2) (hj : j < w) (s t : ℝ) (hs' : s = if j + 1 = w then 1 else 0) (ht' : t = if a = 1 then 1 else 0)
    (h1 : IsF (expansionAlignment 5 (satz i0 (min j (w - 2))) (satz i0 (min j (w - 2) + 1))).1)
    (h2 : IsF (expansionAlignment 5 (satz i0 (min j (w - 2))) (satz i0 (min j (w - 2) + 1))).2) :
    trackScan (Conv.km5to1.cfg w) satz i0 (5 * a + 2) (5 * j + 2) = (sgl t, sgl s) := by
  have hcr : cellRow (Conv.km5to1.cfg w) (5 * a + 2) = 0 := rfl
  have hcc : cellCol (Conv.km5to1.cfg w) (5 * j + 2) = min j (w - 2) := by
    simp only [cellCol, Conv.cfg, show ¬ ((2:Nat) = 10) by omega, if_false]
    rw [show (5 * j + 2 - 2) / 5 = j by omega]
  have hs : s = 0 ∨ s = 1 := by rw [hs']; split <;> simp
  have ht : t = 0 ∨ t = 1 := by rw [ht']; split <;> simp
  unfold trackScan
  simp only [hcr, hcc, Nat.add_zero]
  rw [show (Conv.km5to1.cfg w).perKm = 5 from rfl, show (Conv.km5to1.cfg w).f = 5 from rfl]
  obtain ⟨ce, n1, e1⟩ := isF_iff.1 h1
  obtain ⟨ca, n2, e2⟩ := isF_iff.1 h2
  rw [e1, e2, (getCoords_mx (Conv.km5to1.cfg w) (show (2 : Nat) ≠ 10 by omega) (5 * j + 2)).1,
    (getCoords_mx (Conv.km5to1.cfg w) (show (2 : Nat) ≠ 10 by omega) (5 * a + 2)).2, atrackAscan_mx,
    fl_atrack_corner hs ht (by rw [hs']; exact fl_tie_x hp hw hj) (by rw [ht']; exact fl_tie_y hp ha) n1 n2]
  rfl

/-- **C60 (MODIS 5 km to 1 km, mixed precision)**: with float32 arrays and double constants and functions, as the code runs,
the cartesian interpolation reproduces the tie points bit for bit: the pixel of a tie point gets exactly the result of
converting the tie point to (float32) cartesian coordinates and back.  Any roundings with at least 3 bits, any library;
whole scans with 270 or 271 columns, tie points that are numbers in the cell of the pixel, and zenith angles with numeric
coefficients. -/
theorem C60_modis_5km_mixed (hp : 3 ≤ q.s.p) (n w : Nat) (hw : w = 270 ∨ w = 271) (lon lat satz : Nat → Nat → Mx q)
    (junk : Nat → Nat → Nat → Nat → Mx q) :
    ∃ out, modis5kmTo1km ⟨n * 2, w, lon⟩ ⟨n * 2, w, lat⟩ ⟨n * 2, w, satz⟩ junk = .ok out ∧
      ∀ i j, i < n * 2 → j < w →
        (∀ a b, (a = i / 2 * 2 ∨ a = i / 2 * 2 + 1) → (b = min j (w - 2) ∨ b = min j (w - 2) + 1) →
          IsF (lon a b) ∧ IsF (lat a b)) →
        (let ea := expansionAlignment 5 (satz (i / 2 * 2) (min j (w - 2))) (satz (i / 2 * 2) (min j (w - 2) + 1))
         IsF ea.1 ∧ IsF ea.2) →
        (out.1.cell (5 * i + 2) (5 * j + 2), out.2.cell (5 * i + 2) (5 * j + 2))
          = cyXyz2lonlat earthRadius cyThr true (cyLonlat2xyz earthRadius (lon i j) (lat i j)) := by
  obtain ⟨out, e, p1, p2⟩ := run_pixel .km5to1 (n := n) (lon := ⟨n * 2, w, lon⟩)
    (lat := ⟨n * 2, w, lat⟩) (satz := ⟨n * 2, w, satz⟩) ⟨hw, rfl, rfl, rfl, rfl, rfl⟩ junk
  refine ⟨out, e, fun i j hi hj hties hnum => ?_⟩
  simp only [Conv.scanRows, Conv.factor, Conv.outCols] at p1 p2
  have hr : 5 * i + 2 < n * 2 * 5 := by omega
  have hc : 5 * j + 2 < 1354 := by omega
  rw [p1.cell _ _ hr hc trivial, p2.cell _ _ hr hc trivial]
  show pixel (Conv.km5to1.cfg w) lon lat satz (5 * i + 2) (5 * j + 2) = _
  unfold pixel
  simp only [Conv.cfg]
  rw [show (5 * i + 2) / (2 * 5) * 2 = i / 2 * 2 by omega,
    show (5 * i + 2) % (2 * 5) = 5 * (i % 2) + 2 by omega]
  have hcr : cellRow (Conv.km5to1.cfg w) (5 * (i % 2) + 2) = 0 := rfl
  have hcc : cellCol (Conv.km5to1.cfg w) (5 * j + 2) = min j (w - 2) := by
    simp only [cellCol, Conv.cfg, show ¬ ((2:Nat) = 10) by omega, if_false]
    rw [show (5 * j + 2 - 2) / 5 = j by omega]
  set s : ℝ := if j + 1 = w then 1 else 0 with hs'
  set t : ℝ := if i % 2 = 1 then 1 else 0 with ht'
  have hs : s = 0 ∨ s = 1 := by rw [hs']; split <;> simp
  have ht : t = 0 ∨ t = 1 := by rw [ht']; split <;> simp
  have hts := trackScan_tie hp hw satz (Nat.mod_lt i (by omega : 0 < 2)) hj s t hs' ht' hnum.1 hnum.2
  have hcomp : ∀ k, fineXyz (Conv.km5to1.cfg w) (ties lon lat) satz (i / 2 * 2) (5 * (i % 2) + 2) (5 * j + 2) k
      = ties lon lat i j k := by
    intro k
    unfold fineXyz
    simp only [hts, hcr, hcc, Nat.add_zero]
    have hT : ∀ a b, (a = i / 2 * 2 ∨ a = i / 2 * 2 + 1) → (b = min j (w - 2) ∨ b = min j (w - 2) + 1) →
        IsF (ties lon lat a b k) := fun a b ha hb => isF_ties (hties a b ha hb).1 (hties a b ha hb).2 k
    obtain ⟨va, ra, ea⟩ := hT _ _ (Or.inl rfl) (Or.inl rfl)
    obtain ⟨vb, rb, eb⟩ := hT _ _ (Or.inl rfl) (Or.inr rfl)
    obtain ⟨vc, rc, ec⟩ := hT _ _ (Or.inr rfl) (Or.inr rfl)
    obtain ⟨vd, rd, ed⟩ := hT _ _ (Or.inr rfl) (Or.inl rfl)
    rw [ea, eb, ec, ed]
    have hf := fineComponent_mx (q := q) (Fl.val t) (Fl.val s) (Fl.val va) (Fl.val vb) (Fl.val vc) (Fl.val vd)
    rw [Fl.fineComponent_corner ht hs ra rb rc rd] at hf
    refine hf.trans ?_
    show sgl _ = _
    have hi01 := Nat.mod_two_eq_zero_or_one i
    by_cases hl : j + 1 = w
    · have hm : min j (w - 2) + 1 = j := by omega
      rw [hm] at eb ec
      have hs1 : s = 1 := by rw [hs', if_pos hl]
      rcases hi01 with h0 | h0
      · have ht0 : t = 0 := by rw [ht', if_neg (by omega)]
        rw [show i / 2 * 2 = i by omega] at eb
        simp [eb, hs1, ht0]
      · have ht0 : t = 1 := by rw [ht', if_pos h0]
        rw [show i / 2 * 2 + 1 = i by omega] at ec
        simp [ec, hs1, ht0]
    · have hm : min j (w - 2) = j := by omega
      rw [hm] at ea ed
      have hs1 : s = 0 := by rw [hs', if_neg hl]
      rcases hi01 with h0 | h0
      · have ht0 : t = 0 := by rw [ht', if_neg (by omega)]
        rw [show i / 2 * 2 = i by omega] at ea
        simp [ea, hs1, ht0]
      · have ht0 : t = 1 := by rw [ht', if_pos h0]
        rw [show i / 2 * 2 + 1 = i by omega] at ed
        simp [ed, hs1, ht0]
  show scanPixel (Conv.km5to1.cfg w) (ties lon lat) satz (i / 2 * 2) (5 * (i % 2) + 2) (5 * j + 2) = _
  unfold scanPixel
  rw [hcomp 0, hcomp 1, hcomp 2]
  rfl

/-! ### C61 -/

/-- **C61 (MODIS, mixed precision, for given weights)**: each float32 cartesian coordinate of a fine pixel, computed from the weights
`t`, `s` of the pixel in [0, 1] and float32 tie point coordinates of at most `M`, is within `12 u M` of the exact bilinear
combination with these weights (`u` the unit roundoff of `float`; for float32 and the radius of the Earth 4.6 metres).
With the error of the weights themselves: `C61_modis_mixed`. -/
theorem C61_modis_mixed_given_weights (hp : 4 ≤ q.s.p) (cfg : Cfg) (X : Nat → Nat → Nat → ℝ) (satz : Nat → Nat → Mx q)
    (i0 row col k : Nat) (t s M : ℝ) (hts : trackScan cfg satz i0 row col = (sgl t, sgl s)) (ht : 0 ≤ t ∧ t ≤ 1)
    (hs : 0 ≤ s ∧ s ≤ 1) (hM : ∀ i j, |X i j k| ≤ M) :
    ∃ v, fineXyz cfg (fun i j k => sgl (X i j k)) satz i0 row col k = (sgl v : Mx q) ∧
      |v - ((1 - t) * ((1 - s) * X (i0 + cellRow cfg row) (cellCol cfg col) k
              + s * X (i0 + cellRow cfg row) (cellCol cfg col + 1) k)
            + t * ((1 - s) * X (i0 + cellRow cfg row + 1) (cellCol cfg col) k
              + s * X (i0 + cellRow cfg row + 1) (cellCol cfg col + 1) k))| ≤ 12 * q.s.u * M := by
  obtain ⟨v, hv, h⟩ := fineComponent_bound (r := q.s) hp t s (X (i0 + cellRow cfg row) (cellCol cfg col) k)
    (X (i0 + cellRow cfg row) (cellCol cfg col + 1) k) (X (i0 + cellRow cfg row + 1) (cellCol cfg col + 1) k)
    (X (i0 + cellRow cfg row + 1) (cellCol cfg col) k) ht hs (hM _ _) (hM _ _) (hM _ _) (hM _ _)
  refine ⟨v, ?_, h⟩
  unfold fineXyz
  simp only [hts]
  have hf := fineComponent_mx (q := q) (Fl.val t) (Fl.val s) (Fl.val (X (i0 + cellRow cfg row) (cellCol cfg col) k))
    (Fl.val (X (i0 + cellRow cfg row) (cellCol cfg col + 1) k)) (Fl.val (X (i0 + cellRow cfg row + 1) (cellCol cfg col + 1) k))
    (Fl.val (X (i0 + cellRow cfg row + 1) (cellCol cfg col) k))
  rw [hv] at hf
  exact hf

example (satz : Nat → Nat → Mx Mixed.ieee)
    (h : trackScan (Conv.km5to1.cfg 271) satz 0 4 10 = (sgl (2 / 5), sgl (3 / 5))) :=
  C61_modis_mixed_given_weights (by show 4 ≤ 24; norm_num) _ (fun i j k => ((i + j + k) % 3 : ℕ)) satz 0 4 10 1 _ _ 2 h
    (by norm_num) (by norm_num)
    (by
      intro i j
      rw [abs_of_nonneg (by positivity)]
      have : (i + j + 1) % 3 ≤ 2 := by omega
      exact_mod_cast this)

/-! ### C62 -/

/-- **C62 (mixed precision)**: with float32 angles and double constants and functions, as the code runs, any roundings of at
least 12 bits and any library accurate to 0.1 %, for zenith angles of at most 70 degrees in absolute value and fine pixels
of at most 50 per coarse pixel (the code uses 1 and 5), the two coefficients are numbers exactly if the two zenith angles
are not both 0. -/
theorem C62_coefficients_mixed (hp : 12 ≤ q.s.p) (hl : Fl.LibAcc q.d) (w : Nat) (hw : w ≤ 50) (a b : ℝ) (ha : |a| ≤ 70)
    (hb : |b| ≤ 70) :
    (IsF (expansionAlignment w (sgl a) (sgl b) : Mx q × Mx q).1 ↔ ¬ (a = 0 ∧ b = 0)) ∧
    (IsF (expansionAlignment w (sgl a) (sgl b) : Mx q × Mx q).2 ↔ ¬ (a = 0 ∧ b = 0)) := by
  obtain ⟨x, ex, rx, hx, x0⟩ := deg2rad_num hp a ha
  obtain ⟨y, ey, ry, hy, y0⟩ := deg2rad_num hp b hb
  obtain ⟨f, ef, rf, hf, hf'⟩ := phi_num hp hl x hx
  obtain ⟨g, eg, rg, hg, hg'⟩ := phi_num hp hl y hy
  obtain ⟨m, z, em, ez, rz, hz⟩ := zeta_num hp hl hf' hg'
  obtain ⟨s, es⟩ := root_num hp hl hw m hz
  set ta := q.s.rnd (x - f) with hta
  set tb := q.s.rnd (y - g) with htb
  -- an angle is 0 only if the zenith angle is
  have theta0 : ∀ {x f : ℝ}, |f| ≤ 0.92 * |x| → q.s.rnd (x - f) = 0 → x = 0 := by
    intro x f h e
    rw [q.s.rnd_eq_zero, sub_eq_zero] at e
    rw [← e] at h
    by_contra hne
    have := abs_pos.2 hne
    linarith
  set den : Mx q := if Arith.eq (sgl ta : Mx q) (sgl tb) then sgl ta * 2 else sgl ta - sgl tb with hden
  obtain ⟨D, eD, D0⟩ : ∃ D, den = sgl D ∧ (D = 0 ↔ (a = 0 ∧ b = 0)) := by
    rw [hden, eq_ss]
    by_cases e : ta = tb
    · rw [if_pos (by simpa using e), two_eq, si_mul, rnd_two hp]
      refine ⟨_, rfl, ?_⟩
      rw [q.s.rnd_eq_zero]
      constructor
      · intro h
        have h0 : ta = 0 := by linarith
        exact ⟨x0.1 (theta0 hf h0), y0.1 (theta0 hg (by rw [← htb, ← e]; exact h0))⟩
      · rintro ⟨h, -⟩
        rw [x0.2 h] at hf hta
        have : f = 0 := by simpa using hf
        rw [hta, this]; simp
    · rw [if_neg (by simpa using e), ss_sub]
      refine ⟨_, rfl, ?_⟩
      rw [q.s.rnd_eq_zero, sub_eq_zero]
      refine ⟨fun h => absurd h e, ?_⟩
      rintro ⟨h, h'⟩
      exfalso
      rw [x0.2 h] at hf hta
      rw [y0.2 h'] at hg htb
      have f0 : f = 0 := by simpa using hf
      have g0 : g = 0 := by simpa using hg
      exact e (by rw [hta, htb, f0, g0])
  have e : (expansionAlignment w (sgl a) (sgl b) : Mx q × Mx q)
      = (4 * (((sgl ta + sgl tb) / 2 - (sgl z - sgl m)) / den),
          Trig.toFloating (4 * Trig.toFloating (Trig.cos (sgl z) - dbl s) * Trig.sin (sgl z) / den)) := by
    unfold expansionAlignment
    simp only [ex, ey, ef, eg, em, ez, computeTheta, ss_sub x, ss_sub y, ← hta, ← htb, ← hden]
    simp only at es
    rw [es]
  rw [e, eD, two_eq, four_eq, ss_add, si_div _ _ (by norm_num), ss_sub, ss_sub, cos_sgl, dd_sub, toFloating_dbl, is_mul,
    sin_sgl, sd_mul]
  by_cases h0 : a = 0 ∧ b = 0
  · rw [D0.2 h0, ss_div_zero, ds_div_zero]
    simp [h0, not_isF_bad]
  · have hD : D ≠ 0 := fun h => h0 (D0.1 h)
    rw [ss_div _ hD, ds_div _ hD, is_mul, toFloating_dbl]
    exact ⟨⟨fun _ => h0, fun _ => ⟨_, q.s.rep _, rfl⟩⟩, ⟨fun _ => h0, fun _ => ⟨_, q.s.rep _, rfl⟩⟩⟩

/-- equal angles -/
example : IsF (expansionAlignment 5 (sgl 30) (sgl 30) : Mx Mixed.ieee × _).1 :=
  (C62_coefficients_mixed (by show 12 ≤ 24; norm_num) (Fl.libAcc_correct 53 (by norm_num)) 5 (by norm_num) 30 30
    (by norm_num [abs_le]) (by norm_num [abs_le])).1.2 (by norm_num)

/-- angles that differ in the last bit -/
example : IsF (expansionAlignment 1 (sgl 1) (sgl (1 + 1 / 2 ^ 23)) : Mx Mixed.ieee × _).2 :=
  (C62_coefficients_mixed (by show 12 ≤ 24; norm_num) (Fl.libAcc_correct 53 (by norm_num)) 1 (by norm_num) _ _
    (by norm_num [abs_le]) (by norm_num [abs_le])).2.2 (by norm_num)

/-- two ties, all hypotheses of `C60_modis_5km_mixed` met -/
example (junk : Nat → Nat → Nat → Nat → Mx Mixed.ieee) :
    ∃ out, modis5kmTo1km ⟨1 * 2, 271, fun i j => sgl ((j : ℝ) + i)⟩ ⟨1 * 2, 271, fun i _ => sgl (50 + (i : ℝ))⟩
        ⟨1 * 2, 271, fun _ _ => sgl 30⟩ junk = .ok out ∧
      (out.1.cell 7 1352, out.2.cell 7 1352) = cyXyz2lonlat earthRadius cyThr true
        (cyLonlat2xyz earthRadius (sgl ((270 : ℕ) + (1 : ℕ) : ℝ)) (sgl (50 + (1 : ℕ)))) := by
  obtain ⟨out, h1, h2⟩ := C60_modis_5km_mixed (q := Mixed.ieee) (by show 3 ≤ 24; norm_num) 1 271 (Or.inr rfl)
    (fun i j => sgl ((j : ℝ) + i)) (fun i _ => sgl (50 + (i : ℝ))) (fun _ _ => sgl 30) junk
  refine ⟨out, h1, h2 1 270 (by norm_num) (by norm_num) ?_ ?_⟩
  · intro a b ha hb
    have hrep : ∀ n : ℕ, n ≤ 2 ^ 24 → Rep Mixed.ieee.s.p (n : ℝ) := by
      intro n hn
      have := rep_int (p := 24) (by norm_num) (m := (n : ℤ)) (by rw [abs_of_nonneg (by positivity)]; exact_mod_cast hn)
      exact_mod_cast this
    refine ⟨⟨_, ?_, rfl⟩, ⟨_, ?_, rfl⟩⟩
    · have := hrep (b + a) (by simp at ha hb; omega)
      exact_mod_cast this
    · have := hrep (50 + a) (by simp at ha; omega)
      exact_mod_cast this
  · have := C62_coefficients_mixed (q := Mixed.ieee) (by show 12 ≤ 24; norm_num)
      (Fl.libAcc_correct 53 (by norm_num)) 5 (by norm_num) 30 30 (by norm_num [abs_le]) (by norm_num [abs_le])
    exact ⟨this.1.2 (by norm_num), this.2.2 (by norm_num)⟩

end Verif.Props
