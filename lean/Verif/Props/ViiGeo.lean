import Verif.Props.Vii

/-!
# C42: VII geolocation
-/

set_option linter.unusedSectionVars false

namespace Verif.Props
open Verif Verif.Interpolator Verif.Vii FP

section Choice
variable {K : Type} [Field K] [LinearOrder K] [IsStrictOrderedRing K]

/-- the numbers among `l` -/
theorem filter_numbers (l : List (FP K)) : ∃ vs : List K, l.filter (fun x => Arith.eq x x) = vs.map val ∧
    ∀ v, v ∈ vs ↔ val v ∈ l := by
  induction l with
  | nil => exact ⟨[], rfl, by simp⟩
  | cons x l ih =>
    obtain ⟨vs, h1, h2⟩ := ih
    match x with
    | bad => exact ⟨vs, by simpa using h1, by intro v; simp [h2]⟩
    | val a => exact ⟨a :: vs, by simpa using h1, by intro v; simp [h2]⟩

theorem foldl_amax (l : List K) (a : K) : ∃ m, (l.map val).foldl amax (val a : FP K) = val m ∧ m ∈ a :: l ∧ ∀ v ∈ a :: l, v ≤ m := by
  induction l generalizing a with
  | nil => exact ⟨a, rfl, by simp, by simp⟩
  | cons b l ih =>
    have e : amax (val a : FP K) (val b) = val (max a b) := by
      unfold amax
      rcases lt_or_ge a b with h | h
      · simp [h, max_eq_right h.le]
      · simp [not_lt.2 h, max_eq_left h]
    obtain ⟨m, h1, h2, h3⟩ := ih (max a b)
    refine ⟨m, by rw [List.map_cons, List.foldl_cons, e, h1], ?_, ?_⟩
    · rcases List.mem_cons.1 h2 with h | h
      · rcases max_choice a b with h' | h' <;> simp [h, h']
      · simp [h]
    · intro v hv
      have := h3 (max a b) (by simp)
      rcases List.mem_cons.1 hv with rfl | hv
      · exact le_trans (le_max_left _ _) this
      · rcases List.mem_cons.1 hv with rfl | hv
        · exact le_trans (le_max_right _ _) this
        · exact h3 v (by simp [hv])

theorem foldl_amin (l : List K) (a : K) : ∃ m, (l.map val).foldl amin (val a : FP K) = val m ∧ m ∈ a :: l ∧ ∀ v ∈ a :: l, m ≤ v := by
  induction l generalizing a with
  | nil => exact ⟨a, rfl, by simp, by simp⟩
  | cons b l ih =>
    have e : amin (val a : FP K) (val b) = val (min a b) := by
      unfold amin
      rcases lt_or_ge b a with h | h
      · simp [h, min_eq_right h.le]
      · simp [not_lt.2 h, min_eq_left h]
    obtain ⟨m, h1, h2, h3⟩ := ih (min a b)
    refine ⟨m, by rw [List.map_cons, List.foldl_cons, e, h1], ?_, ?_⟩
    · rcases List.mem_cons.1 h2 with h | h
      · rcases min_choice a b with h' | h' <;> simp [h, h']
      · simp [h]
    · intro v hv
      have := h3 (min a b) (by simp)
      rcases List.mem_cons.1 hv with rfl | hv
      · exact le_trans this (min_le_left _ _)
      · rcases List.mem_cons.1 hv with rfl | hv
        · exact le_trans this (min_le_right _ _)
        · exact h3 v (by simp [hv])

theorem nanMax_cases (l : List (FP K)) : (nanMax l = bad ∧ ∀ v, val v ∉ l) ∨
    ∃ m, nanMax l = val m ∧ val m ∈ l ∧ ∀ v, val v ∈ l → v ≤ m := by
  obtain ⟨vs, h1, h2⟩ := filter_numbers l
  unfold nanMax
  rw [h1]
  match vs, h2 with
  | [], h2 => left; exact ⟨by simp, fun v hv => by simpa using (h2 v).2 hv⟩
  | a :: vs, h2 =>
    right
    obtain ⟨m, e1, e2, e3⟩ := foldl_amax vs a
    exact ⟨m, e1, (h2 m).1 e2, fun v hv => e3 v ((h2 v).2 hv)⟩

theorem nanMin_cases (l : List (FP K)) : (nanMin l = bad ∧ ∀ v, val v ∉ l) ∨
    ∃ m, nanMin l = val m ∧ val m ∈ l ∧ ∀ v, val v ∈ l → m ≤ v := by
  obtain ⟨vs, h1, h2⟩ := filter_numbers l
  unfold nanMin
  rw [h1]
  match vs, h2 with
  | [], h2 => left; exact ⟨by simp, fun v hv => by simpa using (h2 v).2 hv⟩
  | a :: vs, h2 =>
    right
    obtain ⟨m, e1, e2, e3⟩ := foldl_amin vs a
    exact ⟨m, e1, (h2 m).1 e2, fun v hv => e3 v ((h2 v).2 hv)⟩

theorem aabs_bad : aabs (bad : FP K) = bad := by simp [aabs]

/-- longitudes and latitudes can be interpolated directly: away from the poles and the 180 degree meridian -/
def Plain (lon lat : DataArray (FP K)) (thr : K) : Prop :=
  (∀ v, val v ∈ lat.elems → |v| ≤ thr) ∧ ∀ v w, val v ∈ lon.elems → val w ∈ lon.elems → v - w ≤ 180

/-- **C42 (choice)**: the cartesian path is taken exactly when a latitude exceeds the threshold or two longitudes differ by
more than 180 degrees; elements that are not numbers have no influence. -/
theorem C42_choice (lon lat : DataArray (FP K)) (thr : K) : toCart lon lat (val thr) = true ↔ ¬ Plain lon lat thr := by
  have h1 : Arith.lt (val thr) (nanMax (lat.elems.map aabs)) = true ↔ ∃ v, val v ∈ lat.elems ∧ thr < |v| := by
    have hm : ∀ w, val w ∈ lat.elems.map aabs ↔ ∃ v, val v ∈ lat.elems ∧ |v| = w := by
      intro w
      simp only [List.mem_map]
      constructor
      · rintro ⟨x, hx, hxe⟩
        match x with
        | bad => simp [aabs_bad] at hxe
        | val v => exact ⟨v, hx, by simpa using hxe⟩
      · rintro ⟨v, hv, rfl⟩
        exact ⟨val v, hv, by simp⟩
    rcases nanMax_cases (lat.elems.map aabs) with ⟨e, h⟩ | ⟨m, e, hm1, hm2⟩
    · rw [e]
      simp only [lt_bad_right, Bool.false_eq_true, false_iff, not_exists, not_and]
      intro v hv
      exact absurd ((hm _).2 ⟨v, hv, rfl⟩) (h _)
    · rw [e, lt_val]
      simp only [decide_eq_true_eq]
      constructor
      · intro hlt
        obtain ⟨v, hv, rfl⟩ := (hm m).1 hm1
        exact ⟨v, hv, hlt⟩
      · rintro ⟨v, hv, hlt⟩
        exact lt_of_lt_of_le hlt (hm2 _ ((hm _).2 ⟨v, hv, rfl⟩))
  have h2 : Arith.lt (Arith.lit 1800 1) (nanMax lon.elems - nanMin lon.elems) = true
      ↔ ∃ v w, val v ∈ lon.elems ∧ val w ∈ lon.elems ∧ 180 < v - w := by
    rcases nanMax_cases lon.elems with ⟨e, h⟩ | ⟨m, e, hm1, hm2⟩
    · rw [e]
      simp only [bad_sub, lt_bad_right, Bool.false_eq_true, false_iff, not_exists, not_and]
      intro v w hv
      exact absurd hv (h _)
    · rcases nanMin_cases lon.elems with ⟨e', h'⟩ | ⟨n, e', hn1, hn2⟩
      · exact absurd hm1 (h' _)
      rw [e, e', val_sub, lit_eq, lt_val]
      have : ((1800 : Nat) : K) / 10 ^ 1 = 180 := by norm_num
      rw [this, decide_eq_true_eq]
      constructor
      · intro h
        exact ⟨m, n, hm1, hn1, h⟩
      · rintro ⟨v, w, hv, hw, h⟩
        have := hm2 v hv
        have := hn2 w hw
        linarith
  unfold toCart
  rw [Bool.or_eq_true, h1, h2]
  unfold Plain
  constructor
  · rintro (⟨v, hv, h⟩ | ⟨v, w, hv, hw, h⟩) ⟨ha, hb⟩
    · exact absurd (ha v hv) (not_le.2 h)
    · exact absurd (hb v w hv hw) (not_le.2 h)
  · intro hn
    by_contra hc
    push Not at hc
    exact hn ⟨hc.1, fun v w hv hw => hc.2 v w hv hw⟩

example : toCart (⟨("alt", "act"), 2, [[val 179, bad], [val (-179), val 0]]⟩ : DataArray (FP ℚ)) ⟨("alt", "act"), 2, [[val 1, val 2], [bad, val 3]]⟩
    (val 60) = true := by
  rw [C42_choice]
  intro h
  have := h.2 179 (-179) (by simp [DataArray.elems]) (by simp [DataArray.elems])
  norm_num at this

end Choice

/-- **C42 (shapes)**: different shapes are a ValueError. -/
theorem C42_shapes {α : Type} [Trig α] (lon lat : DataArray α) (h : lon.shape ≠ lat.shape) (T F : Nat) (a b : α) :
    tiePointsGeoInterpolation lon lat T F a b = .error .valueError := by
  unfold tiePointsGeoInterpolation
  rw [if_pos h]

example (a b : Float) : tiePointsGeoInterpolation (α := Float) ⟨("alt", "act"), 2, [[1, 2], [3, 4]]⟩ ⟨("alt", "act"), 2, [[1, 2]]⟩ 2 8 a b
    = .error .valueError := C42_shapes _ _ (by simp [DataArray.shape]) _ _ _ _

/-- the elements of an array of numbers -/
theorem mem_numArray {K : Type} (dims : String × String) (n c : Nat) (V : Nat → Nat → K) (v : K) :
    val v ∈ (numArray dims n c V).elems ↔ ∃ i < n, ∃ j < c, V i j = v := by
  simp [DataArray.elems, numArray]

section Geo

/-- **C42 (direct)**: longitudes and latitudes that need no cartesian coordinates are interpolated bilinearly. -/
theorem C42_direct (N T F c : Nat) (hN : 1 ≤ N) (hT : 2 ≤ T) (hF : 1 ≤ F) (hc : 2 ≤ c) (dims : String × String)
    (lon lat : Nat → Nat → ℝ) (thr zthr : ℝ)
    (hlat : ∀ i < N * T, ∀ j < c, |lat i j| ≤ thr)
    (hlon : ∀ i < N * T, ∀ j < c, ∀ i' < N * T, ∀ j' < c, lon i j - lon i' j' ≤ 180) :
    ∃ lo la, tiePointsGeoInterpolation (numArray dims (N * T) c lon) (numArray dims (N * T) c lat) T F (val thr) (val zthr)
        = .ok (lo, la) ∧
      ∀ j < N, ∀ k, k + 1 < T → ∀ u < F, ∀ l, l + 1 < c → ∀ w < F,
        lo.at (j * ((T - 1) * F) + (k * F + u)) (l * F + w)
          = val (Spec.bilinear lon (j * T + k) l ((u : ℝ) / F) ((w : ℝ) / F)) ∧
        la.at (j * ((T - 1) * F) + (k * F + u)) (l * F + w)
          = val (Spec.bilinear lat (j * T + k) l ((u : ℝ) / F) ((w : ℝ) / F)) := by
  have hplain : Plain (numArray dims (N * T) c lon) (numArray dims (N * T) c lat) thr := by
    constructor
    · intro v hv
      obtain ⟨i, hi, j, hj, rfl⟩ := (mem_numArray _ _ _ _ _).1 hv
      exact hlat i hi j hj
    · intro v w hv hw
      obtain ⟨i, hi, j, hj, rfl⟩ := (mem_numArray _ _ _ _ _).1 hv
      obtain ⟨i', hi', j', hj', rfl⟩ := (mem_numArray _ _ _ _ _).1 hw
      exact hlon i hi j hj i' hi' j' hj'
  have hcart : ¬ toCart (numArray dims (N * T) c lon) (numArray dims (N * T) c lat) (val thr) = true :=
    fun h => (C42_choice _ _ _).1 h hplain
  obtain ⟨out, hout, hall⟩ := C41_bilinear_partial N T F c hN hT hF hc dims [lon, lat] (by simp)
  simp only [List.forall₂_cons_left_iff, List.forall₂_nil_left_iff] at hall
  obtain ⟨lo, _, h1, ⟨la, _, h2, rfl, rfl⟩, rfl⟩ := hall
  refine ⟨lo, la, ?_, fun j hj k hk u hu l hl w hw => ⟨h1 j hj k hk u hu l hl w hw, h2 j hj k hk u hu l hl w hw⟩⟩
  unfold tiePointsGeoInterpolation
  rw [if_neg (by simp [numArray, DataArray.shape]), if_neg hcart]
  simp only [List.map_cons, List.map_nil] at hout
  rw [hout]

theorem zipWith_range {β γ δ : Type} (n : Nat) (f : Nat → β) (g : Nat → γ) (h : β → γ → δ) :
    List.zipWith h ((List.range n).map f) ((List.range n).map g) = (List.range n).map (fun i => h (f i) (g i)) := by
  rw [List.zipWith_map]
  simp

theorem zipWith_maps {ι β γ δ : Type} (l : List ι) (f : ι → β) (g : ι → γ) (h : β → γ → δ) :
    List.zipWith h (l.map f) (l.map g) = l.map (fun i => h (f i) (g i)) := by
  rw [List.zipWith_map]
  simp

/-- the radius of viiinterpolator.py -/
noncomputable def viiRadius : ℝ := 63710087714 / 10 ^ 4

theorem viiRadius_pos : 0 < viiRadius := by unfold viiRadius; norm_num

theorem mean_val : (Geo.meanEarthRadius : FP ℝ) = val viiRadius := by
  simp [Geo.meanEarthRadius, viiRadius]

theorem cartesian_val (dims : String × String) (n c : Nat) (lon lat : Nat → Nat → ℝ) (f : FP ℝ × FP ℝ × FP ℝ → FP ℝ)
    (g : ℝ × ℝ × ℝ → ℝ) (hf : ∀ p : ℝ × ℝ × ℝ, f (val p.1, val p.2.1, val p.2.2) = val (g p)) :
    cartesian f (numArray dims n c lon) (numArray dims n c lat)
      = numArray dims n c (fun i j => g (Spec.spherePoint viiRadius (lon i j) (lat i j))) := by
  unfold cartesian numArray
  congr 1
  simp only
  rw [zipWith_range]
  apply List.map_congr_left
  intro i _
  rw [zipWith_range]
  apply List.map_congr_left
  intro j _
  rw [mean_val, Geo.lonlat2xyz_val, hf]

/-- **C42 (cartesian)**: otherwise every pixel is the position of the bilinear interpolation of the cartesian coordinates. -/
theorem C42_cartesian (N T F c : Nat) (hN : 1 ≤ N) (hT : 2 ≤ T) (hF : 1 ≤ F) (hc : 2 ≤ c) (dims : String × String)
    (lon lat : Nat → Nat → ℝ) (thr zthr : ℝ)
    (hcart : (∃ i < N * T, ∃ j < c, thr < |lat i j|) ∨
      ∃ i < N * T, ∃ j < c, ∃ i' < N * T, ∃ j' < c, 180 < lon i j - lon i' j') :
    ∃ lo la, tiePointsGeoInterpolation (numArray dims (N * T) c lon) (numArray dims (N * T) c lat) T F (val thr) (val zthr)
        = .ok (lo, la) ∧
      ∀ j < N, ∀ k, k + 1 < T → ∀ u < F, ∀ l, l + 1 < c → ∀ w < F,
        (lo.at (j * ((T - 1) * F) + (k * F + u)) (l * F + w), la.at (j * ((T - 1) * F) + (k * F + u)) (l * F + w))
          = Geo.viiXyz2lonlat (val viiRadius) (val zthr)
            (val (Spec.bilinear (fun a b => (Spec.spherePoint viiRadius (lon a b) (lat a b)).1) (j * T + k) l
              ((u : ℝ) / F) ((w : ℝ) / F)),
             val (Spec.bilinear (fun a b => (Spec.spherePoint viiRadius (lon a b) (lat a b)).2.1) (j * T + k) l
              ((u : ℝ) / F) ((w : ℝ) / F)),
             val (Spec.bilinear (fun a b => (Spec.spherePoint viiRadius (lon a b) (lat a b)).2.2) (j * T + k) l
              ((u : ℝ) / F) ((w : ℝ) / F))) := by
  have hnot : ¬ Plain (numArray dims (N * T) c lon) (numArray dims (N * T) c lat) thr := by
    rintro ⟨h1, h2⟩
    rcases hcart with ⟨i, hi, j, hj, h⟩ | ⟨i, hi, j, hj, i', hi', j', hj', h⟩
    · exact absurd (h1 _ ((mem_numArray _ _ _ _ _).2 ⟨i, hi, j, hj, rfl⟩)) (not_le.2 h)
    · exact absurd (h2 _ _ ((mem_numArray _ _ _ _ _).2 ⟨i, hi, j, hj, rfl⟩)
        ((mem_numArray _ _ _ _ _).2 ⟨i', hi', j', hj', rfl⟩)) (not_le.2 h)
  have hc' : toCart (numArray dims (N * T) c lon) (numArray dims (N * T) c lat) (val thr) = true :=
    (C42_choice _ _ _).2 hnot
  have ex := cartesian_val dims (N * T) c lon lat (·.1) (·.1) (fun _ => rfl)
  have ey := cartesian_val dims (N * T) c lon lat (·.2.1) (·.2.1) (fun _ => rfl)
  have ez := cartesian_val dims (N * T) c lon lat (·.2.2) (·.2.2) (fun _ => rfl)
  set X := fun a b => (Spec.spherePoint viiRadius (lon a b) (lat a b)).1 with hX
  set Y := fun a b => (Spec.spherePoint viiRadius (lon a b) (lat a b)).2.1 with hY
  set Z := fun a b => (Spec.spherePoint viiRadius (lon a b) (lat a b)).2.2 with hZ
  have hok := vii_ok N T F c hN hT hF hc dims [numArray dims (N * T) c X, numArray dims (N * T) c Y, numArray dims (N * T) c Z]
    (by simp) (by
      intro d hd
      simp only [List.mem_cons, List.not_mem_nil, or_false] at hd
      rcases hd with rfl | rfl | rfl <;> exact ⟨rfl, rfl, by simp [numArray]⟩)
  simp only [List.map_cons, List.map_nil] at hok
  refine ⟨_, _, by
    unfold tiePointsGeoInterpolation
    rw [if_neg (by simp [numArray, DataArray.shape]), if_pos hc', ex, ey, ez, hok], ?_⟩
  intro j hj k hk u hu l hl w hw
  have rows : ∀ f : FP ℝ × FP ℝ → FP ℝ, ∀ x y z : DataArray (FP ℝ),
      x.rows = (pixelRows N T F).map (fun r => (List.range ((c - 1) * F)).map
        (fun q => pixel F (numArray dims (N * T) c X) r q)) →
      y.rows = (pixelRows N T F).map (fun r => (List.range ((c - 1) * F)).map
        (fun q => pixel F (numArray dims (N * T) c Y) r q)) →
      z.rows = (pixelRows N T F).map (fun r => (List.range ((c - 1) * F)).map
        (fun q => pixel F (numArray dims (N * T) c Z) r q)) →
      (geodetic f (val zthr) x y z).at (j * ((T - 1) * F) + (k * F + u)) (l * F + w)
        = f (Geo.viiXyz2lonlat (val viiRadius) (val zthr)
          (pixel F (numArray dims (N * T) c X) (j * T * F + (k * F + u)) (l * F + w),
           pixel F (numArray dims (N * T) c Y) (j * T * F + (k * F + u)) (l * F + w),
           pixel F (numArray dims (N * T) c Z) (j * T * F + (k * F + u)) (l * F + w))) := by
    intro f x y z hx hy hz
    have hg := pixelRows_get N T F j (k * F + u) hj (cell_lt hk hu)
    have hq : l * F + w < (c - 1) * F := cell_lt hl hw
    unfold DataArray.at geodetic
    simp only [hx, hy, hz, zipWith_maps, List.zip, List.getD_eq_getElem?_getD, List.getElem?_map, hg, mean_val]
    simp [hq]
  rw [rows _ _ _ _ rfl rfl rfl, rows _ _ _ _ rfl rfl rfl]
  have e : j * T * F + (k * F + u) = (j * T + k) * F + u := by ring
  have hb : j * T + k + 1 < N * T := by
    calc j * T + k + 1 < j * T + T := by omega
      _ = (j + 1) * T := by ring
      _ ≤ N * T := Nat.mul_le_mul_right _ hj
  rw [e]
  have pv := fun V => pixel_val (K := ℝ) F dims (N * T) c V (j * T + k) u l w hb hu hl hw
  have p1 := pv X
  have p2 := pv Y
  have p3 := pv Z
  unfold numArray
  rw [p1, p2, p3]

/-- **C42 (tie points)**: in both cases a pixel at a tie point has the tie's longitude and latitude, provided it is off the
axis and the 180 degree meridian. -/
theorem C42_tie_points (N T F c : Nat) (hN : 1 ≤ N) (hT : 2 ≤ T) (hF : 1 ≤ F) (hc : 2 ≤ c) (dims : String × String)
    (lon lat : Nat → Nat → ℝ) (thr zthr : ℝ) :
    ∃ lo la, tiePointsGeoInterpolation (numArray dims (N * T) c lon) (numArray dims (N * T) c lat) T F (val thr) (val zthr)
        = .ok (lo, la) ∧
      ∀ j < N, ∀ k, k + 1 < T → ∀ l, l + 1 < c →
        -180 < lon (j * T + k) l → lon (j * T + k) l < 180 → -90 < lat (j * T + k) l → lat (j * T + k) l < 90 →
        lo.at (j * ((T - 1) * F) + k * F) (l * F) = val (lon (j * T + k) l) ∧
        la.at (j * ((T - 1) * F) + k * F) (l * F) = val (lat (j * T + k) l) := by
  by_cases h : (∃ i < N * T, ∃ j < c, thr < |lat i j|) ∨
      ∃ i < N * T, ∃ j < c, ∃ i' < N * T, ∃ j' < c, 180 < lon i j - lon i' j'
  · obtain ⟨lo, la, h1, h2⟩ := C42_cartesian N T F c hN hT hF hc dims lon lat thr zthr h
    refine ⟨lo, la, h1, ?_⟩
    intro j hj k hk l hl b1 b2 b3 b4
    have h3 := h2 j hj k hk 0 hF l hl 0 hF
    rw [C41_tie, C41_tie, C41_tie] at h3
    have r := (C06_copies_agree viiRadius zthr (Spec.spherePoint viiRadius (lon (j * T + k) l) (lat (j * T + k) l))
      viiRadius_pos).2
    unfold pt at r
    rw [r, ← Geo.lonlat2xyz_val, C01_roundtrip_partial _ _ _ _ _ viiRadius_pos b1 b2 b3 b4] at h3
    exact Prod.mk.inj h3
  · push Not at h
    obtain ⟨lo, la, h1, h2⟩ := C42_direct N T F c hN hT hF hc dims lon lat thr zthr h.1 h.2
    refine ⟨lo, la, h1, ?_⟩
    intro j hj k hk l hl _ _ _ _
    obtain ⟨h3, h4⟩ := h2 j hj k hk 0 hF l hl 0 hF
    rw [C41_tie] at h3 h4
    exact ⟨h3, h4⟩

/-- longitudes with a hole, latitudes on the equator -/
noncomputable def viiHoleLon : DataArray (FP ℝ) := ⟨("alt", "act"), 3, [[bad, val 1, val 2], [val 1, val 1, val 1]]⟩
noncomputable def viiZeroLat : DataArray (FP ℝ) := ⟨("alt", "act"), 3, [[val 0, val 0, val 0], [val 0, val 0, val 0]]⟩

/-- **C42 (negation)**: a longitude that is not a number spoils the pixel at the next tie point of the line. -/
theorem C42_negation (zthr : ℝ) : tiePointsGeoInterpolation viiHoleLon viiZeroLat 2 1 (val 60) (val zthr)
    = .ok (⟨("alt", "act"), 2, [[bad, bad]]⟩, ⟨("alt", "act"), 2, [[val 0, val 0]]⟩) := by
  have hplain : Plain viiHoleLon viiZeroLat 60 := by
    constructor
    · intro v hv
      simp [viiZeroLat, DataArray.elems] at hv
      rw [hv]; norm_num
    · intro v w hv hw
      simp [viiHoleLon, DataArray.elems] at hv hw
      rcases hv with rfl | rfl | rfl <;> rcases hw with rfl | rfl | rfl <;> norm_num
  have hcart : ¬ toCart viiHoleLon viiZeroLat (val 60) = true := fun h => (C42_choice _ _ _).1 h hplain
  unfold tiePointsGeoInterpolation
  rw [if_neg (by simp [viiHoleLon, viiZeroLat, DataArray.shape]), if_neg hcart]
  simp [tiePointsInterpolation, viiHoleLon, viiZeroLat, DataArray.shape, interpOne, interpAlt, interpAct, pixelRows,
    tieGrid, nums, interp1, searchsorted, List.range_succ, List.mapM_cons, bind, Except.bind, pure, Except.pure]
  norm_num

end Geo

/-- a scan across the 180 degree meridian -/
example := C42_cartesian 1 2 8 2 (by omega) (by omega) (by omega) (by omega) ("alt", "act")
  (fun _ j => if j = 0 then 179 else -179) (fun i _ => i) 60 (4 / 5)
  (Or.inr ⟨0, by omega, 0, by omega, 0, by omega, 1, by omega, by norm_num⟩)

/-- a scan near the equator -/
example := C42_direct 1 2 8 2 (by omega) (by omega) (by omega) (by omega) ("alt", "act")
  (fun _ j => if j = 0 then 10 else 11) (fun _ _ => 1) 60 (4 / 5)
  (by intros; norm_num) (by intros; split <;> split <;> norm_num)

example := C42_tie_points 2 2 8 3 (by omega) (by omega) (by omega) (by omega) ("alt", "act")
  (fun i j => i + j) (fun i j => i - j) 60 (4 / 5)

end Verif.Props
