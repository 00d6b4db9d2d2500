import Verif.Props.FlVii
import Verif.Props.ViiGeo
import Verif.Props.FlGeoGrid

/-!
# C70: accuracy of VII geolocation with rounding
-/

namespace Verif.Props
open Verif Verif.Vii Verif.Interpolator Verif.Geo Verif.Spec Verif.FlGeo Verif.Err Fl
variable {r : Rounding} {ε : ℝ}

/-! ### The choice of the path -/

private theorem foldl_amax_fl (l : List ℝ) (a : ℝ) :
    ∃ m, (l.map val).foldl amax (val a : Fl r) = val m ∧ m ∈ a :: l ∧ ∀ v ∈ a :: l, v ≤ m := by
  induction l generalizing a with
  | nil => exact ⟨a, rfl, by simp, by simp⟩
  | cons b l ih =>
    have e : amax (val a : Fl r) (val b) = val (max a b) := by
      unfold amax
      rcases lt_or_ge a b with h | h
      · simp [h, max_eq_right h.le]
      · simp [not_lt.2 h, max_eq_left h]
    obtain ⟨m, h1, h2, h3⟩ := ih (max a b)
    refine ⟨m, by rw [List.map_cons, List.foldl_cons, e, h1], ?_, ?_⟩
    · rcases List.mem_cons.1 h2 with h | h
      · rcases max_choice a b with h' | h' <;> simp [h, h']
      · simp [h]
    · intro v hv
      have := h3 (max a b) (by simp)
      rcases List.mem_cons.1 hv with rfl | hv
      · exact le_trans (le_max_left _ _) this
      · rcases List.mem_cons.1 hv with rfl | hv
        · exact le_trans (le_max_right _ _) this
        · exact h3 v (by simp [hv])

private theorem foldl_amin_fl (l : List ℝ) (a : ℝ) :
    ∃ m, (l.map val).foldl amin (val a : Fl r) = val m ∧ m ∈ a :: l ∧ ∀ v ∈ a :: l, m ≤ v := by
  induction l generalizing a with
  | nil => exact ⟨a, rfl, by simp, by simp⟩
  | cons b l ih =>
    have e : amin (val a : Fl r) (val b) = val (min a b) := by
      unfold amin
      rcases lt_or_ge b a with h | h
      · simp [h, min_eq_right h.le]
      · simp [not_lt.2 h, min_eq_left h]
    obtain ⟨m, h1, h2, h3⟩ := ih (min a b)
    refine ⟨m, by rw [List.map_cons, List.foldl_cons, e, h1], ?_, ?_⟩
    · rcases List.mem_cons.1 h2 with h | h
      · rcases min_choice a b with h' | h' <;> simp [h, h']
      · simp [h]
    · intro v hv
      have := h3 (min a b) (by simp)
      rcases List.mem_cons.1 hv with rfl | hv
      · exact le_trans this (min_le_left _ _)
      · rcases List.mem_cons.1 hv with rfl | hv
        · exact le_trans this (min_le_right _ _)
        · exact h3 v (by simp [hv])

private theorem filter_fl (l : List ℝ) : (l.map (val : ℝ → Fl r)).filter (fun x => Arith.eq x x) = l.map val := by
  rw [List.filter_eq_self]
  intro a ha
  obtain ⟨b, -, rfl⟩ := List.mem_map.1 ha
  simp

private theorem nanMax_fl {l : List ℝ} (h : l ≠ []) :
    ∃ m, nanMax (l.map (val : ℝ → Fl r)) = val m ∧ m ∈ l ∧ ∀ v ∈ l, v ≤ m := by
  unfold nanMax
  rw [filter_fl]
  obtain ⟨a, l, rfl⟩ := List.exists_cons_of_ne_nil h
  exact foldl_amax_fl l a

private theorem nanMin_fl {l : List ℝ} (h : l ≠ []) :
    ∃ m, nanMin (l.map (val : ℝ → Fl r)) = val m ∧ m ∈ l ∧ ∀ v ∈ l, m ≤ v := by
  unfold nanMin
  rw [filter_fl]
  obtain ⟨a, l, rfl⟩ := List.exists_cons_of_ne_nil h
  exact foldl_amin_fl l a

private def flat (n c : Nat) (V : Nat → Nat → ℝ) : List ℝ := (List.range n).flatMap (fun i => (List.range c).map (fun j => V i j))

private theorem elems_fl (dims : String × String) (n c : Nat) (V : Nat → Nat → ℝ) :
    (flArray (r := r) dims n c V).elems = (flat n c V).map val := by
  unfold DataArray.elems flArray flat
  simp only [List.flatMap_def, List.map_flatten, List.map_map]
  congr 1
  apply List.map_congr_left
  intro i _
  simp

private theorem mem_flat {n c : Nat} {V : Nat → Nat → ℝ} {v : ℝ} : v ∈ flat n c V ↔ ∃ i < n, ∃ j < c, V i j = v := by
  simp [flat]

private theorem aabs_fl (x : ℝ) : aabs (val x : Fl r) = val |x| := by
  unfold aabs
  rw [zero_eq, lt_val]
  by_cases h : x < 0
  · simp [h, abs_of_neg h]
  · simp [h, abs_of_nonneg (not_lt.1 h)]

private theorem rep_past_180 (hp : 8 ≤ r.p) : Rep r.p (180 + 256 * r.u) := by
  obtain ⟨k, hk⟩ : ∃ k, r.p = k + 8 := ⟨r.p - 8, by omega⟩
  have h := (rep_int (p := r.p) r.hp1 (m := 180 * 2 ^ k + 1) (by
    rw [abs_of_nonneg (by positivity), hk, pow_add]
    have : (1 : ℤ) ≤ 2 ^ k := one_le_pow₀ (by norm_num)
    norm_num
    linarith)).scale (-(k : ℤ))
  convert h using 1
  unfold Rounding.u
  rw [hk]
  push_cast
  rw [zpow_neg, zpow_neg, zpow_add₀ (by norm_num), zpow_natCast]
  field_simp
  norm_num
  ring

/-- **C70 (choice)**: with rounding, the cartesian path is taken if a latitude exceeds the threshold or two longitudes differ
by at least the number after 180 (`180 + 256 u`), and only if a latitude exceeds it or two longitudes differ by more than
180. -/
theorem C70_choice (hp : 8 ≤ r.p) (dims : String × String) (n c : Nat) (hn : 0 < n) (hc : 0 < c) (lon lat : Nat → Nat → ℝ) (thr : ℝ) :
    (((∃ i < n, ∃ j < c, thr < |lat i j|) ∨ ∃ i < n, ∃ j < c, ∃ i' < n, ∃ j' < c, 180 + 256 * r.u ≤ lon i j - lon i' j') →
      toCart (flArray (r := r) dims n c lon) (flArray dims n c lat) (val thr) = true) ∧
    (toCart (flArray (r := r) dims n c lon) (flArray dims n c lat) (val thr) = true →
      (∃ i < n, ∃ j < c, thr < |lat i j|) ∨ ∃ i < n, ∃ j < c, ∃ i' < n, ∃ j' < c, 180 < lon i j - lon i' j') := by
  have ne : ∀ V : Nat → Nat → ℝ, flat n c V ≠ [] := fun V h => by
    have : V 0 0 ∈ flat n c V := mem_flat.2 ⟨0, hn, 0, hc, rfl⟩
    rw [h] at this; exact absurd this (by simp)
  have elat : (flArray (r := r) dims n c lat).elems.map aabs = (flat n c (fun i j => |lat i j|)).map val := by
    rw [elems_fl, List.map_map]
    unfold flat
    simp only [List.flatMap_def, List.map_flatten, List.map_map]
    congr 1
    apply List.map_congr_left
    intro i _
    simp only [Function.comp_apply, List.map_map]
    apply List.map_congr_left
    intro j _
    simp [aabs_fl]
  obtain ⟨A, a1, a2, a3⟩ := nanMax_fl (r := r) (ne fun i j => |lat i j|)
  obtain ⟨B, b1, b2, b3⟩ := nanMax_fl (r := r) (ne lon)
  obtain ⟨C, c1, c2, c3⟩ := nanMin_fl (r := r) (ne lon)
  have e180 : (Arith.lit 1800 1 : Fl r) = val 180 := by
    rw [lit_eq, show ((1800 : Nat) : ℝ) / 10 ^ 1 = 180 by norm_num, r.rnd_rep (rep_180 hp)]
  have key : toCart (flArray (r := r) dims n c lon) (flArray dims n c lat) (val thr) = true ↔ thr < A ∨ 180 < r.rnd (B - C) := by
    unfold toCart
    rw [elat, a1, elems_fl, b1, c1, e180, val_sub]
    simp
  rw [key]
  constructor
  · rintro (⟨i, hi, j, hj, h⟩ | ⟨i, hi, j, hj, i', hi', j', hj', h⟩)
    · exact Or.inl (lt_of_lt_of_le h (a3 _ (mem_flat.2 ⟨i, hi, j, hj, rfl⟩)))
    · right
      have h1 := b3 _ (mem_flat.2 ⟨i, hi, j, hj, rfl⟩)
      have h2 := c3 _ (mem_flat.2 ⟨i', hi', j', hj', rfl⟩)
      have h3 := r.mono (show 180 + 256 * r.u ≤ B - C by linarith)
      rw [r.rnd_rep (rep_past_180 hp)] at h3
      linarith [r.u_pos]
  · rintro (h | h)
    · obtain ⟨i, hi, j, hj, e⟩ := mem_flat.1 a2
      exact Or.inl ⟨i, hi, j, hj, by rw [e]; exact h⟩
    · right
      obtain ⟨i, hi, j, hj, e⟩ := mem_flat.1 b2
      obtain ⟨i', hi', j', hj', e'⟩ := mem_flat.1 c2
      refine ⟨i, hi, j, hj, i', hi', j', hj', ?_⟩
      rw [e, e']
      by_contra hle
      have := r.mono (not_lt.1 hle)
      rw [r.rnd_rep (rep_180 hp)] at this
      linarith

example : toCart (flArray (r := Rounding.correct 53 (by norm_num)) ("alt", "act") 4 3 (fun _ j => 179 * (1 - j)))
    (flArray ("alt", "act") 4 3 (fun i _ => i)) (val 60) = true :=
  (C70_choice (by show 8 ≤ 53; norm_num) ("alt", "act") 4 3 (by omega) (by omega) _ _ 60).1
    (Or.inr ⟨0, by omega, 0, by omega, 3, by omega, 2, by omega, by
      have : (Rounding.correct 53 (by norm_num)).u = 1 / 2 ^ 53 := by norm_num [Rounding.u, Rounding.correct]
      rw [this]
      norm_num⟩)

/-! ### The direct path -/

/-- **C70 (direct)**: longitudes and latitudes that need no cartesian coordinates: every pixel is within `10800 u` degrees of the
bilinear interpolation of the longitudes and `5400 u` of the latitudes. -/
theorem C70_direct (hp : 8 ≤ r.p) (N T F c : Nat) (hN : 1 ≤ N) (hT : 2 ≤ T) (hF : 1 ≤ F) (hc : 2 ≤ c)
    (hb1 : (N * T - 1) * F ≤ 2 ^ r.p) (hb2 : (c - 1) * F ≤ 2 ^ r.p) (dims : String × String) (lon lat : Nat → Nat → ℝ) (thr zthr : ℝ)
    (hlon : ∀ i < N * T, ∀ j < c, |lon i j| ≤ 180) (hlat : ∀ i < N * T, ∀ j < c, |lat i j| ≤ 90)
    (hthr : ∀ i < N * T, ∀ j < c, |lat i j| ≤ thr)
    (hdiff : ∀ i < N * T, ∀ j < c, ∀ i' < N * T, ∀ j' < c, lon i j - lon i' j' ≤ 180) :
    ∃ lo la, tiePointsGeoInterpolation (flArray (r := r) dims (N * T) c lon) (flArray dims (N * T) c lat) T F (val thr) (val zthr)
        = .ok (lo, la) ∧
      ∀ j < N, ∀ k, k + 1 < T → ∀ u < F, ∀ l, l + 1 < c → ∀ w < F,
        (∃ L, lo.at (j * ((T - 1) * F) + (k * F + u)) (l * F + w) = val L ∧
          |L - bilinear lon (j * T + k) l ((u : ℝ) / F) ((w : ℝ) / F)| ≤ 10800 * r.u) ∧
        (∃ B, la.at (j * ((T - 1) * F) + (k * F + u)) (l * F + w) = val B ∧
          |B - bilinear lat (j * T + k) l ((u : ℝ) / F) ((w : ℝ) / F)| ≤ 5400 * r.u) := by
  have hn : 0 < N * T := by positivity
  have hcart : ¬ toCart (flArray (r := r) dims (N * T) c lon) (flArray dims (N * T) c lat) (val thr) = true := by
    intro h
    rcases (C70_choice hp dims (N * T) c hn (by omega) lon lat thr).2 h with ⟨i, hi, j, hj, h⟩ | ⟨i, hi, j, hj, i', hi', j', hj', h⟩
    · exact absurd (hthr i hi j hj) (not_le.2 h)
    · exact absurd (hdiff i hi j hj i' hi' j' hj') (not_le.2 h)
  obtain ⟨o1, e1, p1⟩ := C61_vii (r := r) (by omega) N T F c hN hT hF hc hb1 hb2 dims [lon] (by simp) 180 (by simpa using hlon)
  obtain ⟨o2, e2, p2⟩ := C61_vii (r := r) (by omega) N T F c hN hT hF hc hb1 hb2 dims [lat] (by simp) 90 (by simpa using hlat)
  have hok := vii_ok N T F c hN hT hF hc dims [flArray (r := r) dims (N * T) c lon, flArray dims (N * T) c lat] (by simp) (by
    intro d hd
    simp only [List.mem_cons, List.not_mem_nil, or_false] at hd
    rcases hd with rfl | rfl <;> exact ⟨rfl, rfl, by simp [flArray]⟩)
  have hok1 := vii_ok N T F c hN hT hF hc dims [flArray (r := r) dims (N * T) c lon] (by simp) (by
    intro d hd
    rw [List.mem_singleton.1 hd]; exact ⟨rfl, rfl, by simp [flArray]⟩)
  have hok2 := vii_ok N T F c hN hT hF hc dims [flArray (r := r) dims (N * T) c lat] (by simp) (by
    intro d hd
    rw [List.mem_singleton.1 hd]; exact ⟨rfl, rfl, by simp [flArray]⟩)
  simp only [List.map_cons, List.map_nil] at hok hok1 hok2 e1 e2
  rw [hok1] at e1
  rw [hok2] at e2
  obtain rfl := Except.ok.inj e1
  obtain rfl := Except.ok.inj e2
  refine ⟨_, _, by
    unfold tiePointsGeoInterpolation
    rw [if_neg (by simp [flArray, DataArray.shape]), if_neg hcart, hok], ?_⟩
  intro j hj k hk u hu l hl w hw
  obtain ⟨q1, -⟩ := List.forall₂_cons.1 p1
  obtain ⟨q2, -⟩ := List.forall₂_cons.1 p2
  obtain ⟨L, l1, l2⟩ := q1 j hj k hk u hu l hl w hw
  obtain ⟨B, b1, b2⟩ := q2 j hj k hk u hu l hl w hw
  exact ⟨⟨L, l1, l2.trans (le_of_eq (by ring))⟩, B, b1, b2.trans (le_of_eq (by ring))⟩

/-! ### The cartesian path -/

/-- the radius of viiinterpolator.py as the program represents it -/
noncomputable def viiR (r : Rounding) : ℝ := r.rnd viiRadius

theorem mean_fl : (Geo.meanEarthRadius : Fl r) = val (viiR r) := by
  show val (r.rnd _) = _
  unfold viiR viiRadius
  norm_num

theorem viiR_pos : 0 < viiR r := r.rnd_pos viiRadius_pos

theorem cartesian_fl (hp : 8 ≤ r.p) (dims : String × String) (n c : Nat) (lon lat : Nat → Nat → ℝ) (f : Fl r × Fl r × Fl r → Fl r)
    (g : ℝ × ℝ × ℝ → ℝ) (hf : ∀ p : ℝ × ℝ × ℝ, f (flpt r p) = val (g p)) :
    cartesian f (flArray dims n c lon) (flArray dims n c lat)
      = flArray dims n c (fun i j => g (fwd r (viiR r) (lon i j) (lat i j))) := by
  unfold cartesian flArray
  congr 1
  simp only
  rw [zipWith_range]
  apply List.map_congr_left
  intro i _
  rw [zipWith_range]
  apply List.map_congr_left
  intro j _
  rw [mean_fl, lonlat2xyz_fl hp, hf]

/-- the bilinear interpolation of the points of the sphere -/
noncomputable def viiPoint (R : ℝ) (lon lat : Nat → Nat → ℝ) (m l : Nat) (t s : ℝ) : ℝ × ℝ × ℝ :=
  (bilinear (fun a b => (spherePoint R (lon a b) (lat a b)).1) m l t s,
   bilinear (fun a b => (spherePoint R (lon a b) (lat a b)).2.1) m l t s,
   bilinear (fun a b => (spherePoint R (lon a b) (lat a b)).2.2) m l t s)

private theorem bilinear_diff {V W : Nat → Nat → ℝ} {m l : Nat} {t s e : ℝ} (t0 : 0 ≤ t) (t1 : t ≤ 1) (s0 : 0 ≤ s) (s1 : s ≤ 1)
    (h : ∀ i j, (i = m ∨ i = m + 1) → (j = l ∨ j = l + 1) → |V i j - W i j| ≤ e) : |bilinear V m l t s - bilinear W m l t s| ≤ e := by
  have h1 := Grid.abs_convex_le s0 s1 (h m l (by simp) (by simp)) (h m (l + 1) (by simp) (by simp))
  have h2 := Grid.abs_convex_le s0 s1 (h (m + 1) l (by simp) (by simp)) (h (m + 1) (l + 1) (by simp) (by simp))
  have h3 := Grid.abs_convex_le t0 t1 h1 h2
  unfold bilinear
  refine le_of_eq_of_le ?_ h3
  congr 1
  ring

/-- **C70 (cartesian)**: near the poles or across the 180-degree meridian.  If the bilinear interpolation of the four points
of the sphere is within `η` of the point of the sphere at (`lon'`, `lat'`), the reported position is within
`270 sqrt ε + 98 η'` degrees of `lon'` on the circle and `115 η' + 950 ε` degrees of `lat'`, where
`η' = η + 114 ε / cos lat'`; only within `90 η'` degrees of the 180-degree meridian longitude 0 may be reported instead. -/
theorem C70_cartesian (hp : 8 ≤ r.p) (h : LibRel r ε) (hε : ε ≤ 1 / 4096) (N T F c : Nat) (hN : 1 ≤ N) (hT : 2 ≤ T) (hF : 1 ≤ F)
    (hc : 2 ≤ c) (hb1 : (N * T - 1) * F ≤ 2 ^ r.p) (hb2 : (c - 1) * F ≤ 2 ^ r.p) (dims : String × String) (lon lat : Nat → Nat → ℝ)
    (thr zthr : ℝ) (hz : ThrOk zthr) (hzr : Rep r.p zthr)
    (hlon : ∀ i < N * T, ∀ j < c, |lon i j| ≤ 180) (hlat : ∀ i < N * T, ∀ j < c, |lat i j| ≤ 90)
    (hcart : (∃ i < N * T, ∃ j < c, thr < |lat i j|) ∨
      ∃ i < N * T, ∃ j < c, ∃ i' < N * T, ∃ j' < c, 180 + 256 * r.u ≤ lon i j - lon i' j') :
    ∃ lo la, tiePointsGeoInterpolation (flArray (r := r) dims (N * T) c lon) (flArray dims (N * T) c lat) T F (val thr) (val zthr)
        = .ok (lo, la) ∧
      ∀ j < N, ∀ k, k + 1 < T → ∀ u < F, ∀ l, l + 1 < c → ∀ w < F,
        ∀ lon' lat' η η', |lon'| ≤ 180 → |lat'| < 90 →
          NearSphere (viiR r) η lon' lat' (viiPoint (viiR r) lon lat (j * T + k) l ((u : ℝ) / F) ((w : ℝ) / F)) →
          η' = η + 114 * ε / Real.cos (rad lat') → η' ≤ 1 / 100 →
          (∃ L, lo.at (j * ((T - 1) * F) + (k * F + u)) (l * F + w) = val L ∧
            (LonWithin (270 * √ε + 98 * η') L lon' ∨ (L = 0 ∧ 180 - 90 * η' ≤ |lon'|))) ∧
          (∃ B, la.at (j * ((T - 1) * F) + (k * F + u)) (l * F + w) = val B ∧ |B - lat'| ≤ 115 * η' + 950 * ε) := by
  have hn : 0 < N * T := by positivity
  have h0 := h.pos
  have hR := viiR_pos (r := r)
  have hc' := (C70_choice hp dims (N * T) c hn (by omega) lon lat thr).1 hcart
  obtain ⟨P, eP⟩ : ∃ P : Nat → Nat → ℝ × ℝ × ℝ, P = fun i j => fwd r (viiR r) (lon i j) (lat i j) := ⟨_, rfl⟩
  have ex := cartesian_fl hp dims (N * T) c lon lat (·.1) (·.1) (fun _ => rfl)
  have ey := cartesian_fl hp dims (N * T) c lon lat (·.2.1) (·.2.1) (fun _ => rfl)
  have ez := cartesian_fl hp dims (N * T) c lon lat (·.2.2) (·.2.2) (fun _ => rfl)
  have hok := vii_ok N T F c hN hT hF hc dims [flArray (r := r) dims (N * T) c (fun i j => (P i j).1),
      flArray dims (N * T) c (fun i j => (P i j).2.1), flArray dims (N * T) c (fun i j => (P i j).2.2)]
    (by simp) (by
      intro d hd
      simp only [List.mem_cons, List.not_mem_nil, or_false] at hd
      rcases hd with rfl | rfl | rfl <;> exact ⟨rfl, rfl, by simp [flArray]⟩)
  simp only [List.map_cons, List.map_nil] at hok
  rw [eP] at hok
  refine ⟨_, _, by
    unfold tiePointsGeoInterpolation
    rw [if_neg (by simp [flArray, DataArray.shape]), if_pos hc', ex, ey, ez, hok], ?_⟩
  intro j hj k hk u hu l hl w hw lon' lat' η η' hlo hla hnr eη' hη'
  have e : j * T * F + (k * F + u) = (j * T + k) * F + u := by ring
  have hm : j * T + k + 1 < N * T := by
    calc j * T + k + 1 < j * T + T := by omega
      _ = (j + 1) * T := by ring
      _ ≤ N * T := Nat.mul_le_mul_right _ hj
  have hFp : (0 : ℝ) < F := by exact_mod_cast hF
  have w0 : 0 ≤ (w : ℝ) / F := by positivity
  have w1 : (w : ℝ) / F ≤ 1 := by rw [div_le_one hFp]; exact_mod_cast hw.le
  have u0 : 0 ≤ (u : ℝ) / F := by positivity
  have u1 : (u : ℝ) / F ≤ 1 := by rw [div_le_one hFp]; exact_mod_cast hu.le
  have herr : ∀ i < N * T, ∀ j < c, |(P i j).1 - (spherePoint (viiR r) (lon i j) (lat i j)).1| ≤ 19 * ε * viiR r ∧
      |(P i j).2.1 - (spherePoint (viiR r) (lon i j) (lat i j)).2.1| ≤ 19 * ε * viiR r ∧
      |(P i j).2.2 - (spherePoint (viiR r) (lon i j) (lat i j)).2.2| ≤ 19 * ε * viiR r := by
    intro i hi j hj
    rw [eP]
    exact fwd_err h hε hR (hlon i hi j hj) (hlat i hi j hj)
  have near : ∀ f : ℝ × ℝ × ℝ → ℝ, (∀ i < N * T, ∀ j < c, |f (P i j) - f (spherePoint (viiR r) (lon i j) (lat i j))| ≤ 19 * ε * viiR r) →
      (∀ i j, |f (spherePoint (viiR r) (lon i j) (lat i j))| ≤ viiR r) →
      ∃ v, Vii.pixel F (flArray (r := r) dims (N * T) c (fun i j => f (P i j))) ((j * T + k) * F + u) (l * F + w) = val v ∧ Rep r.p v ∧
        |v - bilinear (fun a b => f (spherePoint (viiR r) (lon a b) (lat a b))) (j * T + k) l ((u : ℝ) / F) ((w : ℝ) / F)|
          ≤ 50 * (114 / 71 * ε) * viiR r := by
    intro f hf hs
    have hM : ∀ i < N * T, ∀ j < c, |f (P i j)| ≤ (1 + 19 * ε) * viiR r := by
      intro i hi j hj
      have a1 := hf i hi j hj
      have a2 := hs i j
      calc |f (P i j)| = |f (spherePoint (viiR r) (lon i j) (lat i j)) + (f (P i j) - f (spherePoint (viiR r) (lon i j) (lat i j)))| := by ring_nf
        _ ≤ _ := abs_add_le _ _
        _ ≤ _ := by linarith
    obtain ⟨v, v1, v2, v3⟩ := vii_pixel_err (r := r) (by omega) (N * T) F c hF hb1 hb2 dims (fun i j => f (P i j)) _ hM hm hu hl hw
    refine ⟨v, v1, v2, ?_⟩
    have d := bilinear_diff (m := j * T + k) (l := l) u0 u1 w0 w1 (V := fun i j => f (P i j))
      (W := fun a b => f (spherePoint (viiR r) (lon a b) (lat a b))) (e := 19 * ε * viiR r) (by
        intro a b ha hb
        refine hf a ?_ b ?_
        · omega
        · omega)
    rw [← sub_add_sub_cancel]
    refine (abs_add_le _ _).trans ((add_le_add v3 d).trans ?_)
    have g1 : 60 * r.u * ((1 + 19 * ε) * viiR r) ≤ 60 * ε * ((1 + 19 * ε) * viiR r) :=
      mul_le_mul_of_nonneg_right (by linarith [h.u]) (by positivity)
    have hεR : 0 < ε * viiR r := by positivity
    have g2 : ε * (ε * viiR r) ≤ 1 / 4096 * (ε * viiR r) := mul_le_mul_of_nonneg_right hε hεR.le
    norm_num
    linarith
  have sph : ∀ i j, |(spherePoint (viiR r) (lon i j) (lat i j)).1| ≤ viiR r ∧ |(spherePoint (viiR r) (lon i j) (lat i j)).2.1| ≤ viiR r ∧
      |(spherePoint (viiR r) (lon i j) (lat i j)).2.2| ≤ viiR r := by
    intro i j
    have k : ∀ {a b : ℝ}, |a| ≤ 1 → |b| ≤ 1 → |viiR r * a * b| ≤ viiR r := by
      intro a b ha hb
      rw [abs_mul, abs_mul, abs_of_pos hR, mul_assoc]
      exact mul_le_of_le_one_right hR.le (mul_le_one₀ ha (abs_nonneg _) hb)
    refine ⟨k (Real.abs_cos_le_one _) (Real.abs_cos_le_one _), k (Real.abs_cos_le_one _) (Real.abs_sin_le_one _), ?_⟩
    have := k (a := Real.sin (rad (lat i j))) (b := 1) (Real.abs_sin_le_one _) (by norm_num)
    rwa [mul_one] at this
  obtain ⟨x, x1, x2, x3⟩ := near (·.1) (fun i hi j hj => (herr i hi j hj).1) (fun i j => (sph i j).1)
  obtain ⟨y, y1, y2, y3⟩ := near (·.2.1) (fun i hi j hj => (herr i hi j hj).2.1) (fun i j => (sph i j).2.1)
  obtain ⟨z, z1, z2, z3⟩ := near (·.2.2) (fun i hi j hj => (herr i hi j hj).2.2) (fun i j => (sph i j).2.2)
  obtain ⟨hη, hnear⟩ := near_add (p := (x, y, z)) hR hla (by positivity : 0 ≤ 114 / 71 * ε) hnr x3 y3 z3
  have eη : η + 71 * (114 / 71 * ε) / Real.cos (rad lat') = η' := by rw [eη']; ring
  rw [eη] at hnear
  have hη0 : 0 ≤ η' := nonneg_of_mul_nonneg_left ((abs_nonneg _).trans hnear.2) hR
  obtain ⟨⟨L, -, l1, l2, l3⟩, B, -, b1, b2⟩ := C64_back_error (r := r) hp h hε (R := viiR r) hR
    hz hzr hlo hla hη' ⟨x2, y2, z2⟩ hnear _ (List.mem_cons_of_mem _ (List.mem_cons_of_mem _ (List.mem_cons_self ..)))
  have rows : ∀ f : Fl r × Fl r → Fl r, ∀ x' y' z' : DataArray (Fl r),
      x'.rows = (pixelRows N T F).map (fun q => (List.range ((c - 1) * F)).map
        (fun q' => Vii.pixel F (flArray dims (N * T) c (fun i j => (P i j).1)) q q')) →
      y'.rows = (pixelRows N T F).map (fun q => (List.range ((c - 1) * F)).map
        (fun q' => Vii.pixel F (flArray dims (N * T) c (fun i j => (P i j).2.1)) q q')) →
      z'.rows = (pixelRows N T F).map (fun q => (List.range ((c - 1) * F)).map
        (fun q' => Vii.pixel F (flArray dims (N * T) c (fun i j => (P i j).2.2)) q q')) →
      (geodetic f (val zthr) x' y' z').at (j * ((T - 1) * F) + (k * F + u)) (l * F + w)
        = f (Geo.viiXyz2lonlat (val (viiR r)) (val zthr) (flpt r (x, y, z))) := by
    intro f x' y' z' hx hy hz
    have hg := pixelRows_get N T F j (k * F + u) hj (cell_lt hk hu)
    rw [e] at hg
    have hq : l * F + w < (c - 1) * F := cell_lt hl hw
    unfold DataArray.at geodetic
    simp only [hx, hy, hz, zipWith_maps, List.zip, List.getD_eq_getElem?_getD, List.getElem?_map, hg, mean_fl]
    rw [Option.map_some, Option.getD_some, List.getElem?_map, List.getElem?_range hq, Option.map_some, Option.getD_some, x1, y1, z1]
    rfl
  rw [rows _ _ _ _ (by rw [eP]) (by rw [eP]) (by rw [eP]), rows _ _ _ _ (by rw [eP]) (by rw [eP]) (by rw [eP])]
  refine ⟨⟨L, l1, ?_⟩, B, b1, b2⟩
  by_cases ham : onAntimeridian (x, y, z)
  · exact Or.inr ⟨l3 ham, near_antimeridian hR hlo hla hη0 (by linarith) hnear ham⟩
  · exact Or.inl (l2 ham)

private theorem u53' : (Rounding.correct 53 (by norm_num)).u = 1 / 2 ^ 53 := by
  show (2 : ℝ) ^ (-((53 : ℕ) : ℤ)) = _
  rw [zpow_neg, zpow_natCast]; norm_num

/-- doubles: two scans near the equator, within 0.0000000001 degrees -/
example : ∃ lo la : DataArray (Fl (Rounding.correct 53 (by norm_num))),
    tiePointsGeoInterpolation (flArray (r := Rounding.correct 53 (by norm_num)) ("alt", "act") 4 3 (fun _ j => 10 + j))
      (flArray ("alt", "act") 4 3 (fun i _ => i)) 2 8 (val 60) (val (4 / 5)) = .ok (lo, la) ∧
    ∃ L, lo.at 11 12 = val L ∧ |L - 11.5| ≤ 0.00000001 := by
  obtain ⟨lo, la, h1, h2⟩ := C70_direct (r := Rounding.correct 53 (by norm_num)) (by show 8 ≤ 53; norm_num) 2 2 8 3 (by omega) (by omega)
    (by omega) (by omega) (by show 24 ≤ 2 ^ 53; norm_num) (by show 16 ≤ 2 ^ 53; norm_num) ("alt", "act") (fun _ j => 10 + j) (fun i _ => i) 60
    (4 / 5) (by
      intro i _ j hj
      rw [abs_of_nonneg (by positivity)]
      have : (j : ℝ) ≤ 3 := by exact_mod_cast (by omega : j ≤ 3)
      linarith) (by
      intro i hi j _
      rw [abs_of_nonneg (by positivity)]
      have : (i : ℝ) ≤ 4 := by exact_mod_cast (by omega : i ≤ 4)
      linarith) (by
      intro i hi j _
      rw [abs_of_nonneg (by positivity)]
      have : (i : ℝ) ≤ 4 := by exact_mod_cast (by omega : i ≤ 4)
      linarith) (by
      intro i _ j hj i' _ j' _
      have : (j : ℝ) ≤ 3 := by exact_mod_cast (by omega : j ≤ 3)
      have : (0 : ℝ) ≤ j' := by positivity
      linarith)
  refine ⟨lo, la, h1, ?_⟩
  obtain ⟨⟨L, l1, l2⟩, -⟩ := h2 1 (by omega) 0 (by omega) 3 (by omega) 1 (by omega) 4 (by omega)
  refine ⟨L, l1, ?_⟩
  rw [u53'] at l2
  have e : bilinear (fun _ j : Nat => (10 + j : ℝ)) (1 * 2 + 0) 1 (((3 : ℕ) : ℝ) / ((8 : ℕ) : ℝ)) (((4 : ℕ) : ℝ) / ((8 : ℕ) : ℝ)) = 11.5 := by
    unfold bilinear; norm_num
  rw [e] at l2
  exact l2.trans (by norm_num)

/-- doubles: a scan at 70 degrees north (beyond the threshold 60) on the meridian 10 -/
example : ∃ lo la : DataArray (Fl (Rounding.correct 53 (by norm_num))),
    tiePointsGeoInterpolation (flArray (r := Rounding.correct 53 (by norm_num)) ("alt", "act") 2 3 (fun _ _ => 10))
      (flArray ("alt", "act") 2 3 (fun _ _ => 70)) 2 8 (val 60) (val (3 / 4)) = .ok (lo, la) ∧
    ∃ B, la.at 3 12 = val B ∧ |B - 70| ≤ 0.00000001 := by
  have hcos : 1 / 100 ≤ Real.cos (rad 70) := by
    have h1 : Real.cos (Real.pi / 2 - Real.pi / 9) = Real.sin (Real.pi / 9) := Real.cos_pi_div_two_sub _
    have h2 : Real.pi / 9 * (2 / Real.pi) ≤ Real.sin (Real.pi / 9) := by
      have := Real.mul_le_sin (x := Real.pi / 9) (by positivity) (by linarith [Real.pi_pos])
      linarith
    rw [show rad 70 = Real.pi / 2 - Real.pi / 9 by unfold rad; ring, h1]
    have : Real.pi / 9 * (2 / Real.pi) = 2 / 9 := by field_simp
    linarith
  have h34 : Rep (Rounding.correct 53 (by norm_num)).p (3 / 4) := by
    have := (rep_int (p := 53) (by norm_num) (m := 3) (by norm_num)).scale (-2)
    norm_num at this
    exact this
  obtain ⟨lo, la, h1, h2⟩ := C70_cartesian (r := Rounding.correct 53 (by norm_num)) (by show 8 ≤ 53; norm_num) (libRel_correct 53 (by norm_num))
    (by rw [u53']; norm_num) 1 2 8 3 (by omega) (by omega)
    (by omega) (by omega) (by show 8 ≤ 2 ^ 53; norm_num) (by show 16 ≤ 2 ^ 53; norm_num) ("alt", "act") (fun _ _ => 10) (fun _ _ => 70) 60
    (3 / 4) ⟨by norm_num, by norm_num⟩ h34 (by intros; norm_num [abs_le]) (by intros; norm_num [abs_le])
    (Or.inl ⟨0, by omega, 0, by omega, by norm_num [abs_of_pos]⟩)
  refine ⟨lo, la, h1, ?_⟩
  obtain ⟨-, B, b1, b2⟩ := h2 0 (by omega) 0 (by omega) 3 (by omega) 1 (by omega) 4 (by omega) 10 70 0 _ (by norm_num) (by norm_num) (by
    have hb : ∀ x t s : ℝ, bilinear (fun _ _ => x) (0 * 2 + 0) 1 t s = x := by intro x t s; unfold bilinear; ring
    unfold viiPoint NearSphere
    simp only [hb]
    simp) rfl (by
    rw [zero_add, u53', div_le_iff₀ (lt_of_lt_of_le (by norm_num) hcos)]
    linarith)
  refine ⟨B, b1, b2.trans ?_⟩
  have : 114 * (1 / 2 ^ 53) / Real.cos (rad 70) ≤ 114 * (1 / 2 ^ 53) / (1 / 100) :=
    div_le_div_of_nonneg_left (by norm_num) (by norm_num) hcos
  rw [zero_add, u53']
  refine le_trans (add_le_add (mul_le_mul_of_nonneg_left this (by norm_num)) le_rfl) (by norm_num)

end Verif.Props
