import Verif.Proofs.FlPresets
import Verif.Props.PresetsMore

/-!
# C76: the preset functions accept whole swaths in floating point arithmetic
-/

set_option linter.unusedSectionVars false

namespace Verif.Props
open Verif Verif.Interpolator Verif.Spec Verif.Presets Verif.Multi

variable {r : Rounding}

/-! ### the positions -/

theorem rep_nat {p n : Nat} (hp : 1 ≤ p) (h : n ≤ 2 ^ p) : Rep p (n : ℝ) := by
  have := rep_int hp (m := (n : ℤ)) (by
    rw [abs_of_nonneg (by positivity)]; exact_mod_cast h)
  simpa using this

theorem arange_fl (n : Nat) : (arange 0 n 1 : List (Fl r)) = fpos r (fun i => (i : ℝ)) n := by
  unfold arange pyRange fpos poss
  rw [List.map_map, List.map_map]
  simp [Fl.ofInt_eq]

/-- integers divided by a small integer `d` -/
theorem div_fl {f : Nat → Nat} {n d : Nat} (hf : ∀ i < n, f i ≤ 2 ^ r.p) (hd : 1 ≤ d) (hd' : d ≤ 2 ^ r.p) {m e : Nat}
    (hl : (m : ℝ) / 10 ^ e = d) :
    ((List.range n).map (fun i => (Arith.ofInt (f i : Int) : Fl r))).map (· / Arith.lit m e)
      = fpos r (fun i => (f i : ℝ) / d) n := by
  unfold fpos poss
  rw [List.map_map, List.map_map]
  refine List.map_congr_left (fun i hi => ?_)
  have hi' := List.mem_range.mp hi
  have hd0 : (d : ℝ) ≠ 0 := by exact_mod_cast (show d ≠ 0 by omega)
  simp only [Function.comp, Fl.ofInt_eq, Fl.lit_eq, hl]
  rw [r.rnd_rep (rep_nat r.hp1 hd'), Int.cast_natCast, r.rnd_rep (rep_nat r.hp1 (hf i hi')), Fl.val_div_of_ne _ hd0]

/-- integers less half of an odd number `b`, divided by a small integer `d` -/
theorem shift_fl {n d b : Nat} (hf : 2 * n + b ≤ 2 ^ r.p) (hd : 1 ≤ d) (hd' : d ≤ 2 ^ r.p) {m e m' e' : Nat}
    (hl : (m : ℝ) / 10 ^ e = d) (hl' : (m' : ℝ) / 10 ^ e' = b / 2) :
    (arange 0 n 1 : List (Fl r)).map (fun x => (x - Arith.lit m' e') / Arith.lit m e)
      = fpos r (fun i => ((i : ℝ) - b / 2) / d) n := by
  rw [arange_fl]
  unfold fpos poss
  rw [List.map_map, List.map_map, List.map_map]
  refine List.map_congr_left (fun i hi => ?_)
  have hi' := List.mem_range.mp hi
  have hd0 : (d : ℝ) ≠ 0 := by exact_mod_cast (show d ≠ 0 by omega)
  have hb : Rep r.p ((b : ℝ) / 2) := by
    have := (rep_nat r.hp1 (show b ≤ 2 ^ r.p by omega)).scale (-1)
    rwa [zpow_neg_one, ← div_eq_mul_inv] at this
  have hsub : Rep r.p ((i : ℝ) - b / 2) := by
    have h1 : Rep r.p (((2 * i - b : ℤ) : ℤ) : ℝ) := rep_int r.hp1 (by
      have h2 : 2 * i + b ≤ 2 ^ r.p := by omega
      have h3 : 2 * (i : ℤ) + b ≤ 2 ^ r.p := by exact_mod_cast h2
      rw [abs_le]
      constructor <;> omega)
    have := h1.scale (-1)
    rw [zpow_neg_one, ← div_eq_mul_inv] at this
    convert this using 1
    push_cast; ring
  simp only [Function.comp, Fl.lit_eq, hl, hl', Fl.val_sub]
  rw [r.rnd_rep (rep_nat r.hp1 hd'), r.rnd_rep (rep_nat r.hp1 (show i ≤ 2 ^ r.p by omega)), r.rnd_rep hb, r.rnd_rep hsub,
    Fl.val_div_of_ne _ hd0]

theorem big {s : Nat} (hp : 16 ≤ r.p) (hb : 512 * s ≤ 2 ^ r.p) :
    65536 ≤ 2 ^ r.p ∧ r.u * s ≤ 1 / 512 ∧ r.u ≤ 1 / 65536 := by
  have h16 : (2 : Nat) ^ 16 ≤ 2 ^ r.p := Nat.pow_le_pow_right (by norm_num) hp
  have hu : r.u * 2 ^ r.p = 1 := by
    unfold Rounding.u
    rw [← zpow_natCast, ← zpow_add₀ (by norm_num)]
    simp
  have hb' : (512 : ℝ) * s ≤ 2 ^ r.p := by exact_mod_cast hb
  have h16' : (65536 : ℝ) ≤ 2 ^ r.p := by
    have : ((2 ^ 16 : Nat) : ℝ) ≤ ((2 ^ r.p : Nat) : ℝ) := by exact_mod_cast h16
    push_cast at this
    linarith
  refine ⟨by simpa using h16, ?_, ?_⟩
  · have := mul_le_mul_of_nonneg_left hb' r.u_pos.le
    rw [hu] at this
    linarith
  · have := mul_le_mul_of_nonneg_left h16' r.u_pos.le
    rw [hu] at this
    linarith

noncomputable def flGrid5 {s : Nat} (hp : 16 ≤ r.p) (hs : 1 ≤ s) (hb : 512 * s ≤ 2 ^ r.p) : FlGrid grid5 r s where
  m := 5
  f := 5
  B := 2 * s + 271
  hs := hs
  hm := by norm_num
  hB := by
    obtain ⟨_, h2, h3⟩ := big hp hb
    have : 2 * r.u * (2 * s + 271) * (5 : Nat) = 20 * (r.u * s) + 2710 * r.u := by push_cast; ring
    rw [this]
    linarith
  hf := rfl
  gp i := ⟨2 + i * 5, by show (2 + (i : ℝ) * 5) / 5 = _; push_cast; ring⟩
  gh i := ⟨i, by show (i : ℝ) / 5 = _; push_cast; ring⟩
  gq i := ⟨2 + i * 5, by show (2 + (i : ℝ) * 5) / 5 = _; push_cast; ring⟩
  gg i := ⟨i, by show (i : ℝ) / 5 = _; push_cast; ring⟩
  bt := by show ((s * 2 : Nat) : ℝ) ≤ _; push_cast; linarith
  bh i hi := by
    have hi' : i < s * 10 := hi
    have h : (i : ℝ) ≤ s * 10 := by exact_mod_cast hi'.le
    show |(i : ℝ) / 5| ≤ _
    rw [abs_of_nonneg (by positivity)]
    linarith
  bg i hi := by
    have hi' : i < 1354 := hi
    have h : (i : ℝ) ≤ 1354 := by exact_mod_cast hi'.le
    have hs0 : (0 : ℝ) ≤ s := by positivity
    show |(i : ℝ) / 5| ≤ _
    rw [abs_of_nonneg (by positivity)]
    linarith
  bk := by show s * 10 ≤ _; omega

noncomputable def flGrid500 {s : Nat} (hp : 16 ≤ r.p) (hs : 1 ≤ s) (hb : 512 * s ≤ 2 ^ r.p) : FlGrid grid500 r s where
  m := 4
  f := 2
  B := 10 * s + 1354
  hs := hs
  hm := by norm_num
  hB := by
    obtain ⟨_, h2, h3⟩ := big hp hb
    have : 2 * r.u * (10 * s + 1354) * (4 : Nat) = 80 * (r.u * s) + 10832 * r.u := by push_cast; ring
    rw [this]
    linarith
  hf := rfl
  gp i := ⟨4 * i, by show (i : ℝ) = _; push_cast; ring⟩
  gh i := ⟨2 * i - 1, by show ((i : ℝ) - 1 / 2) / 2 = _; push_cast; ring⟩
  gq i := ⟨4 * i, by show (i : ℝ) = _; push_cast; ring⟩
  gg i := ⟨2 * i, by show (i : ℝ) / 2 = _; push_cast; ring⟩
  bt := by show ((s * 10 : Nat) : ℝ) ≤ _; push_cast; linarith
  bh i hi := by
    have hi' : i < s * 20 := hi
    have h : (i : ℝ) ≤ s * 20 := by exact_mod_cast hi'.le
    have h0 : (0 : ℝ) ≤ i := by positivity
    show |((i : ℝ) - 1 / 2) / 2| ≤ _
    rw [abs_le]
    constructor <;> linarith
  bg i hi := by
    have hi' : i < 2708 := hi
    have h : (i : ℝ) ≤ 2708 := by exact_mod_cast hi'.le
    have hs0 : (0 : ℝ) ≤ s := by positivity
    show |(i : ℝ) / 2| ≤ _
    rw [abs_of_nonneg (by positivity)]
    linarith
  bk := by show s * 20 ≤ _; omega

noncomputable def flGrid250 {s : Nat} (hp : 16 ≤ r.p) (hs : 1 ≤ s) (hb : 512 * s ≤ 2 ^ r.p) : FlGrid grid250 r s where
  m := 8
  f := 4
  B := 10 * s + 1354
  hs := hs
  hm := by norm_num
  hB := by
    obtain ⟨_, h2, h3⟩ := big hp hb
    have : 2 * r.u * (10 * s + 1354) * (8 : Nat) = 160 * (r.u * s) + 21664 * r.u := by push_cast; ring
    rw [this]
    linarith
  hf := rfl
  gp i := ⟨8 * i, by show (i : ℝ) = _; push_cast; ring⟩
  gh i := ⟨2 * i - 3, by show ((i : ℝ) - 3 / 2) / 4 = _; push_cast; ring⟩
  gq i := ⟨8 * i, by show (i : ℝ) = _; push_cast; ring⟩
  gg i := ⟨2 * i, by show (i : ℝ) / 4 = _; push_cast; ring⟩
  bt := by show ((s * 10 : Nat) : ℝ) ≤ _; push_cast; linarith
  bh i hi := by
    have hi' : i < s * 40 := hi
    have h : (i : ℝ) ≤ s * 40 := by exact_mod_cast hi'.le
    have h0 : (0 : ℝ) ≤ i := by positivity
    show |((i : ℝ) - 3 / 2) / 4| ≤ _
    rw [abs_le]
    constructor <;> linarith
  bg i hi := by
    have hi' : i < 5416 := hi
    have h : (i : ℝ) ≤ 5416 := by exact_mod_cast hi'.le
    have hs0 : (0 : ℝ) ≤ s := by positivity
    show |(i : ℝ) / 4| ≤ _
    rw [abs_of_nonneg (by positivity)]
    linarith
  bk := by show s * 40 ≤ _; omega

theorem modis5_fl (S : SplLib (Fl r)) {s : Nat} (hp : 16 ≤ r.p) (hs : 1 ≤ s) (hb : 512 * s ≤ 2 ^ r.p) {lons lats : Mat (Fl r)}
    (h : lons.length = s * 2) :
    modis5kmto1km S lons lats = geoInterpXyz S ["y", "x"] (grid5.fl r s (geoTies lons lats)) := by
  obtain ⟨h16, _, _⟩ := big hp hb
  unfold modis5kmto1km
  simp only [h]
  congr 1
  have h5 : ((50 : Nat) : ℝ) / 10 ^ 1 = (5 : Nat) := by norm_num
  have a1 : ∀ n, n ≤ 2 ^ r.p → (arange 0 n 1 : List (Fl r)).map (· / Arith.lit 50 1) = fpos r (fun i => (i : ℝ) / 5) n := by
    intro n hn
    have e : (arange 0 n 1 : List (Fl r)) = (List.range n).map (fun i => Arith.ofInt ((i : Nat) : Int)) := by
      unfold arange pyRange
      rw [List.map_map]
      simp
    rw [e, div_fl (f := fun i => i) (d := 5) (by intro i hi; omega) (by norm_num) (by omega) h5]
    norm_num
  have a2 : ∀ m n, (m - 2 + 5 - 1) / 5 = n → 2 + n * 5 ≤ 2 ^ r.p →
      (arange 2 m 5 : List (Fl r)).map (· / Arith.lit 50 1) = fpos r (fun i => (2 + (i : ℝ) * 5) / 5) n := by
    intro m n hmn hn
    have e : (arange 2 m 5 : List (Fl r)) = (List.range n).map (fun i => Arith.ofInt ((2 + i * 5 : Nat) : Int)) := by
      unfold arange pyRange
      rw [hmn, List.map_map]
      rfl
    rw [e, div_fl (f := fun i => 2 + i * 5) (d := 5) (by intro i hi; omega) (by norm_num) (by omega) h5]
    norm_num
  rw [a2 1354 271 (by norm_num) (by omega), a2 (s * 2 * 5) (s * 2) (by omega) (by omega), a1 1354 (by omega),
    a1 (s * 2 * 5) (by omega), show s * 2 * 5 = s * 10 by ring]
  rfl

theorem modis500_fl (S : SplLib (Fl r)) {s : Nat} (hp : 16 ≤ r.p) (hb : 512 * s ≤ 2 ^ r.p) {lons lats : Mat (Fl r)}
    (h : lons.length = s * 10) :
    modis1kmto500mSingle S lons lats = geoInterpXyz S ["y", "x"] (grid500.fl r s (geoTies lons lats)) := by
  obtain ⟨h16, _, _⟩ := big hp hb
  unfold modis1kmto500mSingle
  simp only [h]
  congr 1
  have h2 : ((20 : Nat) : ℝ) / 10 ^ 1 = (2 : Nat) := by norm_num
  have h3 : ((5 : Nat) : ℝ) / 10 ^ 1 = (1 : Nat) / 2 := by norm_num
  have a1 : ∀ n, n ≤ 2 ^ r.p → (arange 0 n 1 : List (Fl r)).map (· / Arith.lit 20 1) = fpos r (fun i => (i : ℝ) / 2) n := by
    intro n hn
    have e : (arange 0 n 1 : List (Fl r)) = (List.range n).map (fun i => Arith.ofInt ((i : Nat) : Int)) := by
      unfold arange pyRange
      rw [List.map_map]
      simp
    rw [e, div_fl (f := fun i => i) (d := 2) (by intro i hi; omega) (by norm_num) (by omega) h2]
    norm_num
  have a3 := shift_fl (r := r) (n := s * 10 * 2) (d := 2) (b := 1) (by omega) (by norm_num) (by omega) h2 h3
  rw [a1 (1354 * 2) (by omega), a3, arange_fl (s * 10), arange_fl (1354),
    show s * 10 * 2 = s * 20 by ring]
  norm_num
  rfl

theorem modis250_fl (S : SplLib (Fl r)) {s : Nat} (hp : 16 ≤ r.p) (hb : 512 * s ≤ 2 ^ r.p) {lons lats : Mat (Fl r)}
    (h : lons.length = s * 10) :
    modis1kmto250mSingle S lons lats = geoInterpXyz S ["y", "x"] (grid250.fl r s (geoTies lons lats)) := by
  obtain ⟨h16, _, _⟩ := big hp hb
  unfold modis1kmto250mSingle
  simp only [h]
  congr 1
  have h2 : ((40 : Nat) : ℝ) / 10 ^ 1 = (4 : Nat) := by norm_num
  have h3 : ((15 : Nat) : ℝ) / 10 ^ 1 = (3 : Nat) / 2 := by norm_num
  have a1 : ∀ n, n ≤ 2 ^ r.p → (arange 0 n 1 : List (Fl r)).map (· / Arith.lit 40 1) = fpos r (fun i => (i : ℝ) / 4) n := by
    intro n hn
    have e : (arange 0 n 1 : List (Fl r)) = (List.range n).map (fun i => Arith.ofInt ((i : Nat) : Int)) := by
      unfold arange pyRange
      rw [List.map_map]
      simp
    rw [e, div_fl (f := fun i => i) (d := 4) (by intro i hi; omega) (by norm_num) (by omega) h2]
    norm_num
  have a3 := shift_fl (r := r) (n := s * 10 * 4) (d := 4) (b := 3) (by omega) (by norm_num) (by omega) h2 h3
  rw [a1 (1354 * 4) (by omega), a3, arange_fl (s * 10), arange_fl (1354),
    show s * 10 * 4 = s * 40 by ring]
  norm_num
  rfl

/-! ### C76 -/

/-- **C76 (5 km to 1 km)**, floating point numbers of at least 16 bits: any positive number of whole scans small against
`2 ^ p`, any content (numbers or not), any spline library: the call succeeds and returns five times as many lines, 1354
columns wide. -/
theorem C76_modis5kmto1km (hp : 16 ≤ r.p) (S : SplLib (Fl r)) (s : Nat) (hs : 1 ≤ s) (hb : 512 * s ≤ 2 ^ r.p)
    (lons lats : Mat (Fl r)) (h1 : Shape (2 * s) 271 lons) (h2 : Shape (2 * s) 271 lats) :
    ∃ lo la, modis5kmto1km S lons lats = .ok (lo, la) ∧ Shape (5 * (2 * s)) 1354 lo ∧ Shape (5 * (2 * s)) 1354 la := by
  rw [Nat.mul_comm] at h1 h2
  obtain ⟨lo, la, a, b, c, d, e⟩ := geo_fl_shape (flGrid5 hp hs hb) S h1.1 h2.1 h1.2 h2.2
  rw [show 5 * (2 * s) = s * 10 by ring]
  exact ⟨lo, la, by rw [modis5_fl S hp hs hb h1.1]; exact a, ⟨b, d⟩, ⟨c, e⟩⟩

theorem single500_fl (hp : 16 ≤ r.p) (S : SplLib (Fl r)) (s : Nat) (hs : 1 ≤ s) (hb : 512 * s ≤ 2 ^ r.p)
    (lons lats : Mat (Fl r)) (h1 : Shape (s * 10) 1354 lons) (h2 : Shape (s * 10) 1354 lats) :
    ∃ lo la, modis1kmto500mSingle S lons lats = .ok (lo, la) ∧ Shape (s * 20) 2708 lo ∧ Shape (s * 20) 2708 la := by
  obtain ⟨lo, la, a, b, c, d, e⟩ := geo_fl_shape (flGrid500 hp hs hb) S h1.1 h2.1 h1.2 h2.2
  exact ⟨lo, la, by rw [modis500_fl S hp hb h1.1]; exact a, ⟨b, d⟩, ⟨c, e⟩⟩

theorem single250_fl (hp : 16 ≤ r.p) (S : SplLib (Fl r)) (s : Nat) (hs : 1 ≤ s) (hb : 512 * s ≤ 2 ^ r.p)
    (lons lats : Mat (Fl r)) (h1 : Shape (s * 10) 1354 lons) (h2 : Shape (s * 10) 1354 lats) :
    ∃ lo la, modis1kmto250mSingle S lons lats = .ok (lo, la) ∧ Shape (s * 40) 5416 lo ∧ Shape (s * 40) 5416 la := by
  obtain ⟨lo, la, a, b, c, d, e⟩ := geo_fl_shape (flGrid250 hp hs hb) S h1.1 h2.1 h1.2 h2.2
  exact ⟨lo, la, by rw [modis250_fl S hp hb h1.1]; exact a, ⟨b, d⟩, ⟨c, e⟩⟩

/-- **C76 (1 km to 500 m)**, for any number of cores and any order in which the workers finish: twice as many lines, 2708
columns. -/
theorem C76_modis1kmto500m (hp : 16 ≤ r.p) (S : SplLib (Fl r)) (s : Nat) (hs : 1 ≤ s) (hb : 512 * s ≤ 2 ^ r.p)
    (lons lats : Mat (Fl r)) (h1 : Shape (10 * s) 1354 lons) (h2 : Shape (10 * s) 1354 lats) (cores : Nat)
    (sched splits : List Nat) (hsp : sceneSplits (10 * s) 10 (max 1 cores) = .ok splits)
    (hsc : sched.Perm (List.range (splits.length + 1))) :
    ∃ lo la, modis1kmto500m S lons lats cores sched = .ok (lo, la) ∧ Shape (2 * (10 * s)) 2708 lo ∧
      Shape (2 * (10 * s)) 2708 la := by
  have h1l := h1.1
  rw [Nat.mul_comm 10 s] at h1 h2
  rw [show 2 * (10 * s) = s * 20 by ring]
  unfold modis1kmto500m
  by_cases hc : cores > 1
  · rw [if_pos hc]
    rw [Nat.max_eq_right (by omega), ← h1l] at hsp
    exact multi_shape_of (k := 20) (N := 2708) (by norm_num)
      (fun c c1 c2 lo la g1 g2 => single500_fl hp S c c1 (by omega) lo la g1 g2) hs (by omega) h1 h2 hsp hsc
  · rw [if_neg hc]
    exact single500_fl hp S s hs hb lons lats h1 h2

/-- **C76 (1 km to 250 m)**, for any number of cores and any order in which the workers finish: four times as many lines,
5416 columns. -/
theorem C76_modis1kmto250m (hp : 16 ≤ r.p) (S : SplLib (Fl r)) (s : Nat) (hs : 1 ≤ s) (hb : 512 * s ≤ 2 ^ r.p)
    (lons lats : Mat (Fl r)) (h1 : Shape (10 * s) 1354 lons) (h2 : Shape (10 * s) 1354 lats) (cores : Nat)
    (sched splits : List Nat) (hsp : sceneSplits (10 * s) 10 (max 1 cores) = .ok splits)
    (hsc : sched.Perm (List.range (splits.length + 1))) :
    ∃ lo la, modis1kmto250m S lons lats cores sched = .ok (lo, la) ∧ Shape (4 * (10 * s)) 5416 lo ∧
      Shape (4 * (10 * s)) 5416 la := by
  have h1l := h1.1
  rw [Nat.mul_comm 10 s] at h1 h2
  rw [show 4 * (10 * s) = s * 40 by ring]
  unfold modis1kmto250m
  by_cases hc : cores > 1
  · rw [if_pos hc]
    rw [Nat.max_eq_right (by omega), ← h1l] at hsp
    exact multi_shape_of (k := 40) (N := 5416) (by norm_num)
      (fun c c1 c2 lo la g1 g2 => single250_fl hp S c c1 (by omega) lo la g1 g2) hs (by omega) h1 h2 hsp hsc
  · rw [if_neg hc]
    exact single250_fl hp S s hs hb lons lats h1 h2

/-- **C76 (Metop)**: any number of lines of 105 tie points: one line of 2048 pixels per input line. -/
theorem C76_metop20kmto1km (hp : 11 ≤ r.p) (S : SplLib (Fl r)) (n : Nat) (lons lats : Mat (Fl r)) (h1 : Shape n 105 lons)
    (h2 : Shape n 105 lats) :
    ∃ lo la, metop20kmto1km S lons lats = .ok (lo, la) ∧ Shape n 2048 lo ∧ Shape n 2048 la := by
  have h11 : 2 ^ 11 ≤ 2 ^ r.p := Nat.pow_le_pow_right (by norm_num) hp
  unfold metop20kmto1km geoInterpXyz
  have hc : ([0] ++ pyRange 4 2048 20 ++ [2047]).map (fun (n : Nat) => (Arith.ofInt (n : Int) : Fl r))
      = metopCols.map Fl.val := by
    rw [metopCols_eq, metopCols, List.map_map, List.map_map]
    refine List.map_congr_left (fun j hj => ?_)
    have := metopTie_lt (List.mem_range.mp hj)
    simp only [Function.comp, Fl.ofInt_eq]
    rw [Int.cast_natCast, r.rnd_rep (rep_nat r.hp1 (by omega))]
  simp only [hc, h1.1]
  set st : Interp (Fl r) := ⟨arange 0 n 1, metopCols.map Fl.val, arange 0 n 1, arange 0 2048 1, 0, geoTies lons lats, 1, 3⟩
    with hst
  have hfill : fillBorders [] st = (.ok (), st) := rfl
  rw [hfill]
  have hlen : ∀ m, (arange 0 m 1 : List (Fl r)).length = m := by
    intro m; simp [arange, pyRange]
  have hself : ∀ l : List (Fl r), (∀ x ∈ l, ∃ a : ℝ, x = .val a) → arrayEqual l l = true := by
    intro l hl
    unfold arrayEqual
    rw [Bool.and_eq_true]
    refine ⟨by simp, ?_⟩
    rw [List.all_eq_true]
    intro b hb
    rw [List.zipWith_self] at hb
    obtain ⟨x, hx, rfl⟩ := List.mem_map.mp hb
    obtain ⟨a, rfl⟩ := hl x hx
    simp
  obtain ⟨_, g1, g2⟩ := geoTies_shape h1.1 h2.1 h1.2 h2.2
  have hint : interpolate S st = .ok (st.tieData.map (oneVal S st)) := by
    unfold interpolate
    rw [if_pos (hself _ (by
      intro x hx
      obtain ⟨i, _, rfl⟩ := List.mem_map.mp (show x ∈ (pyRange 0 n 1).map _ from hx)
      exact ⟨_, Fl.ofInt_eq _⟩))]
    refine mapM_ok (fun d hd => ?_)
    refine interp1d_ok S st d ?_ ?_ ?_ ?_
    · show (arange 0 n 1 : List (Fl r)).length ≤ _
      rw [hlen, g1 d hd]
    · intro x hx
      rw [g2 d hd x hx]
      show _ = (metopCols.map (Fl.val : ℝ → Fl r)).length
      simp [metopCols]
    · show 3 < (metopCols.map (Fl.val : ℝ → Fl r)).length
      simp [metopCols]
    · exact (strictInc_fl _).mpr metopCols_sorted
  simp only []
  rw [hint]
  obtain ⟨lo, la, a, b, c, d, e⟩ := toLonLat_shape (out := st.tieData.map (oneVal S st)) (a := n) (b := 2048) (by simp [hst, geoTies])
    (by
      intro d hd
      obtain ⟨d', _, rfl⟩ := List.mem_map.mp hd
      unfold oneVal
      rw [List.length_map, List.length_range]
      exact hlen n) (by
      intro d hd x hx
      obtain ⟨d', _, rfl⟩ := List.mem_map.mp hd
      obtain ⟨i, _, rfl⟩ := List.mem_map.mp hx
      rw [List.length_map]
      have : st.hcolIdx = arange 0 2048 1 := by rw [hst]
      rw [this, hlen])
  exact ⟨lo, la, a, ⟨b, d⟩, ⟨c, e⟩⟩

/-- 200 scans in double precision, with and without numbers -/
example (S : SplLib (Fl (.correct 53 (by norm_num)))) :=
  C76_modis5kmto1km (r := .correct 53 (by norm_num)) (by show 16 ≤ 53; norm_num) S 200 (by norm_num)
    (by show 512 * 200 ≤ 2 ^ 53; norm_num) (List.replicate (2 * 200) (List.replicate 271 (.val 10)))
    (List.replicate (2 * 200) (List.replicate 271 .bad)) (shape_const _ _ _) (shape_const _ _ _)

/-- seven scans on three cores: cuts after 20, 40 and 60 lines, finished in the order 3, 1, 0, 2 -/
example (S : SplLib (Fl (.correct 53 (by norm_num)))) :=
  C76_modis1kmto500m (r := .correct 53 (by norm_num)) (by show 16 ≤ 53; norm_num) S 7 (by norm_num)
    (by show 512 * 7 ≤ 2 ^ 53; norm_num) _ _ (shape_const 70 1354 (.val 10)) (shape_const 70 1354 (.val 3)) 3 [3, 1, 0, 2]
    [20, 40, 60] (by decide) (by decide)

example (S : SplLib (Fl (.correct 53 (by norm_num)))) :=
  C76_modis1kmto250m (r := .correct 53 (by norm_num)) (by show 16 ≤ 53; norm_num) S 7 (by norm_num)
    (by show 512 * 7 ≤ 2 ^ 53; norm_num) _ _ (shape_const 70 1354 (.val 10)) (shape_const 70 1354 .bad) 3 [3, 1, 0, 2]
    [20, 40, 60] (by decide) (by decide)

example (S : SplLib (Fl (.correct 24 (by norm_num)))) :=
  C76_metop20kmto1km (r := .correct 24 (by norm_num)) (by show 11 ≤ 24; norm_num) S 7
    (List.replicate 7 (List.replicate 105 (.val 10))) (List.replicate 7 (List.replicate 105 .bad)) (shape_const _ _ _)
    (shape_const _ _ _)

end Verif.Props
