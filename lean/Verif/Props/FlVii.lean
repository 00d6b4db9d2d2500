import Verif.Props.Vii
import Verif.Proofs.FlVii

/-!
# C60, C61: VII interpolation with rounding
-/

namespace Verif.Props
open Verif Verif.Vii Verif.Interpolator Fl
variable {r : Rounding}

/-- the array of the numbers `V i j` -/
def flArray (dims : String × String) (n c : Nat) (V : Nat → Nat → ℝ) : DataArray (Fl r) :=
  ⟨dims, c, (List.range n).map (fun i => (List.range c).map (fun j => val (V i j)))⟩

private theorem flCol (dims : String × String) (n c : Nat) (V : Nat → Nat → ℝ) (j : Nat) (hj : j < c) :
    (flArray (r := r) dims n c V).col j = (List.range n).map (fun i => val (V i j)) := by
  simp [DataArray.col, flArray, hj]

private theorem pixel_at_fl (F N T c : Nat) (d : DataArray (Fl r)) {o : DataArray (Fl r)}
    (ho : o.rows = (pixelRows N T F).map (fun r => (List.range ((c - 1) * F)).map (fun q => pixel F d r q)))
    {j p q : Nat} (hj : j < N) (hp : p < (T - 1) * F) (hq : q < (c - 1) * F) :
    o.at (j * ((T - 1) * F) + p) q = pixel F d (j * T * F + p) q := by
  unfold DataArray.at
  have h := pixelRows_get N T F j p hj hp
  simp only [ho, List.getD_eq_getElem?_getD, List.getElem?_map, h]
  simp [hq]

private theorem row_lt {j N k T : Nat} (hj : j < N) (hk : k + 1 < T) : j * T + k + 1 < N * T := by
  calc j * T + k + 1 < j * T + T := by omega
    _ = (j + 1) * T := by ring
    _ ≤ N * T := Nat.mul_le_mul_right _ hj

theorem interp1_rep {xs ys : List (Fl r)} {x : Fl r} {v : ℝ} (h : interp1 xs ys x = val v) : Rep r.p v := by
  have hadd : ∀ {a b : Fl r}, a + b = val v → Rep r.p v := by
    intro a b h
    cases a with
    | bad => cases h
    | val a =>
      cases b with
      | bad => cases h
      | val b => rw [val_add, val.injEq] at h; exact h ▸ r.rep _
  have hbad : ¬ (0 / 0 : Fl r) = val v := by
    rw [zero_eq, val_div, if_pos rfl]; exact fun h => nomatch h
  unfold interp1 at h
  split at h
  · split at h
    · exact absurd h hbad
    · exact hadd h
  · exact absurd h hbad

/-- a pixel of one array: within `60 u M` of the bilinear interpolation -/
theorem vii_pixel_err (hp : 6 ≤ r.p) (n F c : Nat) (hF : 1 ≤ F)
    (hb1 : (n - 1) * F ≤ 2 ^ r.p) (hb2 : (c - 1) * F ≤ 2 ^ r.p) (dims : String × String)
    (V : Nat → Nat → ℝ) (M : ℝ) (hM : ∀ i < n, ∀ j < c, |V i j| ≤ M) {m u l w : Nat} (hm : m + 1 < n) (hu : u < F)
    (hl : l + 1 < c) (hw : w < F) :
    ∃ v, pixel F (flArray (r := r) dims n c V) (m * F + u) (l * F + w) = val v ∧ Rep r.p v ∧
      |v - Spec.bilinear V m l ((u : ℝ) / F) ((w : ℝ) / F)| ≤ 60 * r.u * M := by
  have hu0 := r.u_pos
  have hu6 : r.u ≤ 1 / 64 := by
    unfold Rounding.u
    have : (2 : ℝ) ^ (-(r.p : ℤ)) ≤ 2 ^ (-6 : ℤ) := zpow_le_zpow_right₀ (by norm_num) (by omega)
    exact this.trans (by norm_num)
  have hM0 : 0 ≤ M := (abs_nonneg _).trans (hM m (by omega) l (by omega))
  have hFp : (0 : ℝ) < F := by exact_mod_cast hF
  -- weights
  have hw0 : 0 ≤ (w : ℝ) / F := by positivity
  have hw1 : (w : ℝ) / F ≤ 1 := by rw [div_le_one hFp]; exact_mod_cast hw.le
  have hu0' : 0 ≤ (u : ℝ) / F := by positivity
  have hu1 : (u : ℝ) / F ≤ 1 := by rw [div_le_one hFp]; exact_mod_cast hu.le
  set s := (w : ℝ) / F with hs
  set t := (u : ℝ) / F with ht
  -- along the track
  have hcol : ∀ i, i < c → ∃ v, interp1 (nums (tieGrid (n) F)) ((flArray (r := r) dims (n) c V).col i)
      (Arith.ofInt ((m * F + u : Nat) : Int)) = val v ∧
      |v - ((1 - t) * V m i + t * V (m + 1) i)| ≤ 24 * r.u * M := by
    intro i hi
    obtain ⟨v, h1, h2⟩ := interp1_err (r := r) (n) F m u (by omega) hb1 (fun q => V q i) M
      (fun q hq => hM q hq i hi) hm hu
    exact ⟨v, by rw [flCol _ _ _ _ _ hi]; exact h1, h2⟩
  choose! Y hY hYe using hcol
  have hYM : ∀ i < c, |Y i| ≤ (1 + 24 * r.u) * M := by
    intro i hi
    have h1 : |(1 - t) * V m i + t * V (m + 1) i| ≤ M := by
      have a1 := abs_le.1 (hM m (by omega) i hi)
      have a2 := abs_le.1 (hM (m + 1) hm i hi)
      rw [abs_le]; constructor <;> nlinarith
    have h2 := hYe i hi
    calc |Y i| = |(Y i - ((1 - t) * V m i + t * V (m + 1) i)) + ((1 - t) * V m i + t * V (m + 1) i)| := by ring_nf
      _ ≤ _ := (abs_add_le _ _).trans (by linarith)
  unfold pixel
  have hrow : (List.range c).map (fun i => interp1 (nums (tieGrid (n) F)) ((flArray (r := r) dims (n) c V).col i)
      (Arith.ofInt ((m * F + u : Nat) : Int))) = (List.range c).map (fun i => (val (Y i) : Fl r)) :=
    List.map_congr_left fun i hi => hY i (List.mem_range.1 hi)
  have hlen : (flArray (r := r) dims (n) c V).rows.length = n := by simp [flArray]
  have hcc : (flArray (r := r) dims (n) c V).cols = c := rfl
  rw [hlen, hcc, hrow]
  obtain ⟨v, h1, h2⟩ := interp1_err (r := r) c F l w (by omega) hb2 Y ((1 + 24 * r.u) * M) hYM hl hw
  refine ⟨v, h1, interp1_rep h1, ?_⟩
  have e0 := abs_le.1 (hYe l (by omega))
  have e1 := abs_le.1 (hYe (l + 1) hl)
  have e2 := abs_le.1 h2
  unfold Spec.bilinear
  have huM : r.u * (r.u * M) ≤ 1 / 64 * (r.u * M) := mul_le_mul_of_nonneg_right hu6 (by positivity)
  have hs' : 0 ≤ 1 - s := by linarith
  have c1 := mul_le_mul_of_nonneg_left e0.1 hs'
  have c2 := mul_le_mul_of_nonneg_left e0.2 hs'
  have c3 := mul_le_mul_of_nonneg_left e1.1 hw0
  have c4 := mul_le_mul_of_nonneg_left e1.2 hw0
  rw [abs_le]
  constructor <;> nlinarith [e2.1, e2.2]

/-- **C61 (VII)**: with rounding, every pixel is within `60 u M` of the bilinear interpolation of the four ties of its cell,
for ties of at most `M` in absolute value, at least 6 bits, and positions that fit in the bits. -/
theorem C61_vii (hp : 6 ≤ r.p) (N T F c : Nat) (hN : 1 ≤ N) (hT : 2 ≤ T) (hF : 1 ≤ F) (hc : 2 ≤ c)
    (hb1 : (N * T - 1) * F ≤ 2 ^ r.p) (hb2 : (c - 1) * F ≤ 2 ^ r.p) (dims : String × String)
    (Vs : List (Nat → Nat → ℝ)) (hne : Vs ≠ []) (M : ℝ) (hM : ∀ V ∈ Vs, ∀ i < N * T, ∀ j < c, |V i j| ≤ M) :
    ∃ out, tiePointsInterpolation (Vs.map (flArray (r := r) dims (N * T) c)) T F = .ok out ∧
      List.Forall₂ (fun V o => ∀ j < N, ∀ k, k + 1 < T → ∀ u < F, ∀ l, l + 1 < c → ∀ w < F,
        ∃ v, o.at (j * ((T - 1) * F) + (k * F + u)) (l * F + w) = val v ∧
          |v - Spec.bilinear V (j * T + k) l ((u : ℝ) / F) ((w : ℝ) / F)| ≤ 60 * r.u * M) Vs out := by
  refine ⟨_, vii_ok N T F c hN hT hF hc dims _ (by simpa using hne) ?_, ?_⟩
  · intro d hd
    obtain ⟨V, _, rfl⟩ := List.mem_map.1 hd
    exact ⟨rfl, rfl, by simp [flArray]⟩
  · rw [List.map_map, List.forall₂_map_right_iff, List.forall₂_same]
    intro V hV j hj k hk u hu l hl w hw
    rw [pixel_at_fl F N T c (flArray dims (N * T) c V) rfl hj (cell_lt hk hu) (cell_lt hl hw)]
    have e : j * T * F + (k * F + u) = (j * T + k) * F + u := by ring
    rw [e]
    obtain ⟨v, h1, -, h2⟩ := vii_pixel_err hp (N * T) F c hF hb1 hb2 dims V M (hM V hV) (row_lt hj hk) hu hl hw
    exact ⟨v, h1, h2⟩

/-- **C60 (VII, partial)**: with rounding, the pixels of the ties get exactly the tie values, if the factor is a power of
two (8 for the instrument), the ties are numbers, and the differences between neighbouring ties are numbers of the format
(true if one is at most twice the other, `sterbenz`).  Missing: other differences, for which it is false
(`C60_vii_negation`). -/
theorem C60_vii_partial (N T q c : Nat) (hN : 1 ≤ N) (hT : 2 ≤ T) (hc : 2 ≤ c)
    (hb1 : (N * T - 1) * 2 ^ q ≤ 2 ^ r.p) (hb2 : (c - 1) * 2 ^ q ≤ 2 ^ r.p) (dims : String × String)
    (Vs : List (Nat → Nat → ℝ)) (hne : Vs ≠ []) (hrep : ∀ V ∈ Vs, ∀ i < N * T, ∀ j < c, Rep r.p (V i j))
    (hd : ∀ V ∈ Vs, (∀ i, i + 1 < N * T → ∀ j < c, Rep r.p (V (i + 1) j - V i j)) ∧
      ∀ i < N * T, ∀ j, j + 1 < c → Rep r.p (V i (j + 1) - V i j)) :
    ∃ out, tiePointsInterpolation (Vs.map (flArray (r := r) dims (N * T) c)) T (2 ^ q) = .ok out ∧
      List.Forall₂ (fun V o => ∀ j < N, ∀ k, k + 1 < T → ∀ l, l + 1 < c →
        o.at (j * ((T - 1) * 2 ^ q) + k * 2 ^ q) (l * 2 ^ q) = val (V (j * T + k) l)) Vs out := by
  have hF : 0 < 2 ^ q := by positivity
  refine ⟨_, vii_ok N T (2 ^ q) c hN hT hF hc dims _ (by simpa using hne) ?_, ?_⟩
  · intro d hd
    obtain ⟨V, _, rfl⟩ := List.mem_map.1 hd
    exact ⟨rfl, rfl, by simp [flArray]⟩
  · rw [List.map_map, List.forall₂_map_right_iff, List.forall₂_same]
    intro V hV j hj k hk l hl
    have hpix := pixel_at_fl (2 ^ q) N T c (flArray (r := r) dims (N * T) c V) (o := { (flArray (r := r) dims (N * T) c V) with
        cols := (c - 1) * 2 ^ q
        rows := (pixelRows N T (2 ^ q)).map (fun x => (List.range ((c - 1) * 2 ^ q)).map (fun y =>
          pixel (2 ^ q) (flArray (r := r) dims (N * T) c V) x y)) }) rfl hj (cell_lt hk hF) (cell_lt hl hF)
    rw [Nat.add_zero, Nat.add_zero] at hpix
    refine hpix.trans ?_
    have e : j * T * 2 ^ q + k * 2 ^ q = (j * T + k) * 2 ^ q := by ring
    rw [e]
    set m := j * T + k with hm'
    have hm : m + 1 < N * T := row_lt hj hk
    unfold pixel
    have hlen : (flArray (r := r) dims (N * T) c V).rows.length = N * T := by simp [flArray]
    have hcc : (flArray (r := r) dims (N * T) c V).cols = c := rfl
    have hrow : (List.range c).map (fun i => interp1 (nums (tieGrid (N * T) (2 ^ q)))
        ((flArray (r := r) dims (N * T) c V).col i) (Arith.ofInt ((m * 2 ^ q : Nat) : Int)))
        = (List.range c).map (fun i => (val (V m i) : Fl r)) := by
      refine List.map_congr_left fun i hi => ?_
      rw [flCol _ _ _ _ _ (List.mem_range.1 hi)]
      refine interp1_exact (N * T) q m hb1 (fun x => V x i) hm (hrep V hV m (by omega) i (List.mem_range.1 hi)) ?_
      intro h0
      have := (hd V hV).1 (m - 1) (by omega) i (List.mem_range.1 hi)
      rwa [show m - 1 + 1 = m by omega] at this
    rw [hlen, hcc, hrow]
    refine interp1_exact c q l hb2 (fun x => V m x) hl (hrep V hV m (by omega) l (by omega)) ?_
    intro h0
    have := (hd V hV).2 m (by omega) (l - 1) (by omega)
    rwa [show l - 1 + 1 = l by omega] at this

/-- two by three ties; the middle column is far smaller than the first -/
def viiSteep (r : Rounding) (_ j : Nat) : ℝ := if j = 0 then 2 ^ (r.p + 2) else 1

/-- **C60 (VII, negation)**: for every precision and rounding there are representable ties (a scan of two rows of three) for
which the pixel of an interior tie does not get the tie value: the tie is 1, the pixel 0. -/
theorem C60_vii_negation (hp : 4 ≤ r.p) :
    (∀ i j, Rep r.p (viiSteep r i j)) ∧
    ∃ out o, tiePointsInterpolation [flArray (r := r) ("alt", "act") 2 3 (viiSteep r)] 2 8 = .ok out ∧ out = [o] ∧
      o.at 0 8 = val 0 ∧ viiSteep r 0 1 = 1 := by
  have hbig : Rep r.p ((2 : ℝ) ^ (r.p + 2)) := by
    have := (rep_one (p := r.p) r.hp1).scale (r.p + 2 : ℕ)
    rwa [one_mul, zpow_natCast] at this
  have h16 : 16 ≤ 2 ^ r.p := le_trans (by norm_num) (Nat.pow_le_pow_right (by norm_num) hp : 2 ^ 4 ≤ 2 ^ r.p)
  refine ⟨fun i j => ?_, _, _, vii_ok 1 2 8 3 (by omega) (by omega) (by omega) (by omega) ("alt", "act")
    [flArray (r := r) ("alt", "act") 2 3 (viiSteep r)] (by simp) ?_, rfl, ?_, by simp [viiSteep]⟩
  · unfold viiSteep
    split
    · exact hbig
    · exact rep_one r.hp1
  · intro d hd
    simp only [List.mem_cons, List.not_mem_nil, or_false] at hd
    subst hd
    exact ⟨rfl, rfl, by simp [flArray]⟩
  · have hpix := pixel_at_fl 8 1 2 3 (flArray (r := r) ("alt", "act") 2 3 (viiSteep r))
      (o := { (flArray (r := r) ("alt", "act") 2 3 (viiSteep r)) with
        cols := (3 - 1) * 8
        rows := (pixelRows 1 2 8).map (fun x => (List.range ((3 - 1) * 8)).map (fun y =>
          pixel 8 (flArray (r := r) ("alt", "act") 2 3 (viiSteep r)) x y)) }) rfl (j := 0) (p := 0) (q := 8) (by omega)
        (by omega) (by omega)
    rw [show 0 * ((2 - 1) * 8) + 0 = 0 by omega] at hpix
    refine hpix.trans ?_
    unfold pixel
    have hlen : (flArray (r := r) ("alt", "act") 2 3 (viiSteep r)).rows.length = 2 := by simp [flArray]
    have hcc : (flArray (r := r) ("alt", "act") 2 3 (viiSteep r)).cols = 3 := rfl
    have hrow : (List.range 3).map (fun i => interp1 (nums (tieGrid 2 8))
        ((flArray (r := r) ("alt", "act") 2 3 (viiSteep r)).col i) (Arith.ofInt ((0 : Nat) : Int)))
        = (List.range 3).map (fun i => (val (viiSteep r 0 i) : Fl r)) := by
      refine List.map_congr_left fun i hi => ?_
      rw [flCol _ _ _ _ _ (List.mem_range.1 hi)]
      refine interp1_exact 2 3 0 (by norm_num; omega) (fun x => viiSteep r x i) (by omega) ?_ (fun h => absurd rfl h)
      unfold viiSteep
      split
      · exact hbig
      · exact rep_one r.hp1
    rw [hlen, hcc, hrow]
    have h := interp1_fl (r := r) 3 8 1 0 (by omega) (viiSteep r 0) (by omega) (by omega)
    rw [show 1 * 8 + 0 = 8 by omega] at h
    rw [h, Fl.val.injEq]
    have e1 : below 1 0 = 0 := rfl
    have e2 : above 8 0 1 = 8 := rfl
    rw [e1, e2]
    simp only [viiSteep, if_true, show ¬ ((0 : Nat) + 1 = 0) by omega, if_false]
    -- the difference is absorbed
    have habs : r.rnd (1 - 2 ^ (r.p + 2)) = -2 ^ (r.p + 2) := by
      have hn := r.near (1 - 2 ^ (r.p + 2)) (-2 ^ (r.p + 2)) hbig.neg
      rw [show (-2 ^ (r.p + 2) - (1 - 2 ^ (r.p + 2)) : ℝ) = -1 by ring, abs_neg, abs_one] at hn
      have hn' := abs_le.1 hn
      have hlow : (2 : ℝ) ^ ((2 : ℤ) + r.p - 1) ≤ |r.rnd (1 - 2 ^ (r.p + 2))| := by
        have e3 : (2 : ℝ) ^ ((2 : ℤ) + r.p - 1) = 2 ^ (r.p + 2) / 2 := by
          rw [zpow_sub₀ (by norm_num), add_comm (2 : ℤ), zpow_add₀ (by norm_num), zpow_natCast, pow_add]
          norm_num
        have e4 : (16 : ℝ) ≤ 2 ^ r.p := by exact_mod_cast h16
        have e5 : (2 : ℝ) ^ (r.p + 2) = 2 ^ r.p * 4 := by rw [pow_add]; norm_num
        rw [e3]
        refine le_trans ?_ (neg_le_abs _)
        linarith [hn'.2]
      obtain ⟨k, hk⟩ := (r.rep (1 - 2 ^ (r.p + 2))).grid hlow
      rw [hk] at hn' ⊢
      have e5 : (2 : ℝ) ^ (r.p + 2) = 2 ^ r.p * 4 := by rw [pow_add]; norm_num
      rw [show (2 : ℝ) ^ (2 : ℤ) = 4 by norm_num] at hn' ⊢
      rw [e5] at hn' ⊢
      have k1 : (-1 : ℝ) < (k : ℝ) + 2 ^ r.p := by linarith [hn'.1]
      have k2 : (k : ℝ) + 2 ^ r.p < 1 := by linarith [hn'.2]
      have k1' : (-1 : ℤ) < k + 2 ^ r.p := by exact_mod_cast k1
      have k2' : k + 2 ^ r.p < 1 := by exact_mod_cast k2
      have : k = -2 ^ r.p := by omega
      rw [this]; push_cast; ring
    rw [habs]
    have hdiv : Rep r.p (-2 ^ (r.p + 2) / ((8 : Nat) : ℝ)) := by
      have := hbig.neg.scale (-3)
      rwa [show (2 : ℝ) ^ (-3 : ℤ) = 1 / 8 by norm_num, mul_one_div] at this
    rw [r.rnd_rep hdiv, show (-2 ^ (r.p + 2) / ((8 : Nat) : ℝ) * ((8 : Nat) : ℝ)) = -2 ^ (r.p + 2) by push_cast; ring,
      r.rnd_rep hbig.neg]
    simp

/-- doubles: two scans, latitudes between 50 and 57 degrees -/
example := C60_vii_partial (r := Rounding.correct 53 (by norm_num)) 2 2 3 4 (by omega) (by omega) (by omega)
  (by show 24 ≤ 2 ^ 53; norm_num) (by show 24 ≤ 2 ^ 53; norm_num) ("alt", "act") [fun i j => ((50 + i + j : Nat) : ℝ)] (by simp)
  (by
    intro V hV i hi j hj
    simp only [List.mem_cons, List.not_mem_nil, or_false] at hV
    subst hV
    have := rep_int (p := 53) (by norm_num) (m := ((50 + i + j : Nat) : ℤ)) (by
      rw [abs_of_nonneg (by positivity)]
      exact_mod_cast (by omega : 50 + i + j ≤ 2 ^ 53))
    exact_mod_cast this)
  (by
    intro V hV
    simp only [List.mem_cons, List.not_mem_nil, or_false] at hV
    subst hV
    have h1 : Rep (Rounding.correct 53 (by norm_num)).p 1 := rep_one (by norm_num [Rounding.correct])
    constructor
    · intro i _ j _
      have e : ((50 + (i + 1) + j : Nat) : ℝ) - ((50 + i + j : Nat) : ℝ) = 1 := by push_cast; ring
      rw [e]; exact h1
    · intro i _ j _
      have e : ((50 + i + (j + 1) : Nat) : ℝ) - ((50 + i + j : Nat) : ℝ) = 1 := by push_cast; ring
      rw [e]; exact h1)

example := C61_vii (r := Rounding.correct 53 (by norm_num)) (by show 6 ≤ 53; norm_num) 2 2 8 3 (by omega) (by omega) (by omega)
  (by omega) (by show 24 ≤ 2 ^ 53; norm_num) (by show 16 ≤ 2 ^ 53; norm_num) ("alt", "act")
  [fun i j => (((i + j) % 4 : Nat) : ℝ)] (by simp) 3 (by
    intro V hV i _ j _
    simp only [List.mem_cons, List.not_mem_nil, or_false] at hV
    subst hV
    show |(((i + j) % 4 : Nat) : ℝ)| ≤ 3
    rw [abs_of_nonneg (by positivity)]
    have : (i + j) % 4 ≤ 3 := by omega
    exact_mod_cast this)

example := C60_vii_negation (r := Rounding.correct 53 (by norm_num)) (by show 4 ≤ 53; norm_num)

end Verif.Props
