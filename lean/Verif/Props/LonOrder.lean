import Verif.Proofs.LonOrder
import Verif.Props.GeoModes

/-!
# C103: longitudes keep their order along a row, latitudes down a column

In exact arithmetic, for the grid, VII and simple MODIS interpolators.
-/

namespace Verif.Props
open Verif Verif.Interpolator Verif.Spec Verif.Presets Verif.Grid Verif.Geo Verif.Vii Verif.LonOrder FP Real

/-- Both ties on the right of the cell are east of both ties on its left, by less than 180 degrees; no tie is a pole or on the
180-degree meridian. -/
def CellEast (lon lat : Nat → Nat → ℝ) (m l : Nat) : Prop :=
  (∀ a ≤ 1, ∀ b ≤ 1, |lon (m + a) (l + b)| < 180 ∧ |lat (m + a) (l + b)| < 90) ∧
  ∀ a ≤ 1, ∀ a' ≤ 1, lon (m + a) l < lon (m + a') (l + 1) ∧ lon (m + a') (l + 1) < lon (m + a) l + 180

/-- The ties of the second row of the cell are north of those above them, and all four are between the latitudes where the code changes
formula (the sine of about 53.13 degrees is 8/10). -/
def CellNorth (thr : ℝ) (lat : Nat → Nat → ℝ) (m l : Nat) : Prop :=
  (∀ a ≤ 1, ∀ b ≤ 1, |lat (m + a) (l + b)| ≤ 90 ∧ |sin (rad (lat (m + a) (l + b)))| < thr) ∧
  ∀ b ≤ 1, lat m (l + b) < lat (m + 1) (l + b)

private theorem rad_lt {a b : ℝ} (h : a < b) : rad a < rad b := mul_lt_mul_of_pos_right h (by positivity)

private theorem deg_lt {a b : ℝ} (h : a < b) : deg a < deg b := mul_lt_mul_of_pos_right h (by positivity)

private theorem rad_deg (x : ℝ) : rad (deg x) = x := by
  unfold rad deg
  have := pi_pos.ne'
  field_simp

private theorem deg_rad (x : ℝ) : deg (rad x) = x := by
  unfold rad deg
  have := pi_pos.ne'
  field_simp

private theorem rad_180 : rad 180 = π := by unfold rad; ring

private theorem rad_neg (x : ℝ) : rad (-x) = -rad x := by unfold rad; ring

/-- the longitude reported for a point given in polar coordinates -/
private theorem reported {R thr : ℝ} (low : Bool) (hR : 0 < R) {p : ℝ × ℝ × ℝ} {ρ β : ℝ} (hρ : 0 < ρ) (h1 : -π < β) (h2 : β < π)
    (hx : p.1 = ρ * cos β) (hy : p.2.1 = ρ * sin β) : (xyz2lonlat (val R) (val thr) low (pt p)).1 = val (deg β) := by
  have sc := sin_sq_add_cos_sq β
  have hd : axisDistSq p = ρ ^ 2 := by rw [axisDistSq, hx, hy]; linear_combination ρ ^ 2 * sc
  obtain ⟨A, ⟨a1, a2, a3, a4⟩, e, _⟩ := C91_lon R thr low p hR (by rw [hd]; positivity) (by
    rintro ⟨g1, g2⟩
    rw [hy, mul_eq_zero] at g1
    have s0 : sin β = 0 := by rcases g1 with g | g; exact absurd g hρ.ne'; exact g
    rw [(sin_eq_zero_iff_of_lt_of_lt h1 h2).1 s0, cos_zero] at hx
    linarith)
  rw [hd, sqrt_sq hρ.le] at a3 a4
  have u : rad A = β := by
    have b1 := rad_lt a1
    have b2 := rad_lt a2
    rw [rad_neg, rad_180] at b1
    rw [rad_180] at b2
    exact angle_unique b1 b2.le h1 h2.le (mul_left_cancel₀ hρ.ne' (by rw [← a3, hx])) (mul_left_cancel₀ hρ.ne' (by rw [← a4, hy]))
  rw [e, ← u, deg_rad]

/-- the four ties of a cell, seen along its middle meridian -/
private theorem four {R : ℝ} (hR : 0 < R) {lon lat : Nat → Nat → ℝ} {m l : Nat} (h : CellEast lon lat m l) :
    ∃ (q : Four) (α : ℝ), (∀ t s, (cellMean R lon lat m l t s).1 = q.D t s * cos α - q.N t s * sin α) ∧
      (∀ t s, (cellMean R lon lat m l t s).2.1 = q.D t s * sin α + q.N t s * cos α) ∧
      ∀ a b, -π < α + q.x a b ∧ α + q.x a b < π := by
  obtain ⟨h1, h2⟩ := h
  have c00 := h1 0 (by omega) 0 (by omega)
  have c01 := h1 0 (by omega) 1 (by omega)
  have c10 := h1 1 (by omega) 0 (by omega)
  have c11 := h1 1 (by omega) 1 (by omega)
  have d00 := h2 0 (by omega) 0 (by omega)
  have d01 := h2 0 (by omega) 1 (by omega)
  have d10 := h2 1 (by omega) 0 (by omega)
  have d11 := h2 1 (by omega) 1 (by omega)
  simp only [Nat.add_zero] at c00 c01 c10 c11 d00 d01 d10 d11
  -- the ends
  obtain ⟨lo, l1, l2, l3⟩ : ∃ lo, lo ≤ lon m l ∧ lo ≤ lon (m + 1) l ∧ (lo = lon m l ∨ lo = lon (m + 1) l) :=
    ⟨min (lon m l) (lon (m + 1) l), min_le_left _ _, min_le_right _ _, min_choice _ _⟩
  obtain ⟨hi, g1, g2, g3⟩ : ∃ hi, lon m (l + 1) ≤ hi ∧ lon (m + 1) (l + 1) ≤ hi ∧ (hi = lon m (l + 1) ∨ hi = lon (m + 1) (l + 1)) :=
    ⟨max (lon m (l + 1)) (lon (m + 1) (l + 1)), le_max_left _ _, le_max_right _ _, max_choice _ _⟩
  have w : hi - lo < 180 := by
    rcases l3 with e | e <;> rcases g3 with f | f <;> rw [e, f] <;> linarith [d00.2, d01.2, d10.2, d11.2]
  have near : ∀ a b : Fin 2, lo ≤ lon (m + a) (l + b) ∧ lon (m + a) (l + b) ≤ hi := by
    intro a b
    fin_cases a <;> fin_cases b <;> simp <;> constructor <;> linarith [d00.1, d01.1, d10.1, d11.1]
  have hx : ∀ a b : Fin 2, -(π / 2) < rad (lon (m + a) (l + b)) - rad ((lo + hi) / 2) ∧
      rad (lon (m + a) (l + b)) - rad ((lo + hi) / 2) < π / 2 := by
    intro a b
    have hp := pi_pos
    obtain ⟨n1, n2⟩ := near a b
    have e : rad (lon (m + a) (l + b)) - rad ((lo + hi) / 2) = rad (lon (m + a) (l + b) - (lo + hi) / 2) := by unfold rad; ring
    have r90 : rad 90 = π / 2 := by unfold rad; ring
    rw [e]
    constructor
    · rw [← r90, ← rad_neg]; exact rad_lt (by linarith)
    · rw [← r90]; exact rad_lt (by linarith)
  let q : Four :=
    { r := fun a b => R * cos (rad (lat (m + a) (l + b)))
      x := fun a b => rad (lon (m + a) (l + b)) - rad ((lo + hi) / 2)
      pos := by
        intro a b
        have : |lat (m + a) (l + b)| < 90 := by
          fin_cases a <;> fin_cases b
          exacts [c00.2, c01.2, c10.2, c11.2]
        obtain ⟨k1, k2⟩ := abs_lt.1 this
        obtain ⟨k3, k4⟩ := rad_bounds k1 k2
        exact mul_pos hR (cos_pos_of_mem_Ioo ⟨k3, k4⟩)
      lo := fun a b => (hx a b).1
      hi := fun a b => (hx a b).2
      lt := by
        intro a a'
        have : lon (m + a) l < lon (m + a') (l + 1) := by
          fin_cases a <;> fin_cases a'
          exacts [d00.1, d01.1, d10.1, d11.1]
        have := rad_lt this
        simp
        linarith }
  have D : ∀ t s, q.D t s = (cellMean R lon lat m l t s).1 * cos (rad ((lo + hi) / 2))
      + (cellMean R lon lat m l t s).2.1 * sin (rad ((lo + hi) / 2)) := by
    intro t s
    simp [Four.D, Four.bil, Four.c, q, cellMean, bilinear, spherePoint, cos_sub]
    ring
  have N : ∀ t s, q.N t s = (cellMean R lon lat m l t s).2.1 * cos (rad ((lo + hi) / 2))
      - (cellMean R lon lat m l t s).1 * sin (rad ((lo + hi) / 2)) := by
    intro t s
    simp [Four.N, Four.bil, q, cellMean, bilinear, spherePoint, sin_sub]
    ring
  have sc := sin_sq_add_cos_sq (rad ((lo + hi) / 2))
  refine ⟨q, rad ((lo + hi) / 2), ?_, ?_, ?_⟩
  · intro t s
    rw [D, N]
    linear_combination -(cellMean R lon lat m l t s).1 * sc
  · intro t s
    rw [D, N]
    linear_combination -(cellMean R lon lat m l t s).2.1 * sc
  · intro a b
    have : |lon (m + a) (l + b)| < 180 := by
      fin_cases a <;> fin_cases b
      exacts [c00.1, c01.1, c10.1, c11.1]
    obtain ⟨k1, k2⟩ := abs_lt.1 this
    have b1 := rad_lt k1
    have b2 := rad_lt k2
    rw [rad_neg, rad_180] at b1
    rw [rad_180] at b2
    simp only [q]
    constructor <;> linarith

/-- **C103 (one cell, longitudes)**: the longitudes reported for the points of a row of the cell strictly increase, with either copy of
the conversion and whatever the latitudes. -/
theorem C103_cell (R thr : ℝ) (low : Bool) (hR : 0 < R) (lon lat : Nat → Nat → ℝ) (m l : Nat) (t s s' : ℝ) (t0 : 0 ≤ t) (t1 : t ≤ 1)
    (s0 : 0 ≤ s) (hs : s < s') (s1 : s' ≤ 1) (h : CellEast lon lat m l) :
    ∃ A A', (xyz2lonlat (val R) (val thr) low (pt (cellMean R lon lat m l t s))).1 = val A ∧
      (xyz2lonlat (val R) (val thr) low (pt (cellMean R lon lat m l t s'))).1 = val A' ∧ A < A' := by
  obtain ⟨q, α, hx, hy, hb⟩ := four hR h
  have one : ∀ s, 0 ≤ s → s ≤ 1 → (xyz2lonlat (val R) (val thr) low (pt (cellMean R lon lat m l t s))).1 = val (deg (α + q.th t s)) := by
    intro s s0 s1
    obtain ⟨ρ, hρ, e1, e2⟩ := q.polar t0 t1 s0 s1
    obtain ⟨b1, b2⟩ := q.th_mem t0 t1 s0 s1
    refine reported low hR hρ ?_ ?_ ?_ ?_
    · rcases min_choice (q.x 0 0) (q.x 1 0) with e | e <;> rw [e] at b1
      · linarith [(hb 0 0).1]
      · linarith [(hb 1 0).1]
    · rcases max_choice (q.x 0 1) (q.x 1 1) with e | e <;> rw [e] at b2
      · linarith [(hb 0 1).2]
      · linarith [(hb 1 1).2]
    · rw [hx, e1, e2, cos_add]; ring
    · rw [hy, e1, e2, sin_add]; ring
  have lt := q.th_lt t0 t1 s0 hs s1
  exact ⟨_, _, one s s0 (by linarith), one s' (by linarith) s1, deg_lt (by linarith)⟩

/-- the cells of a swath whose columns are `15°` apart and whose rows run askew meet the hypothesis of the longitude claims -/
private theorem askew_east (m l : Nat) (hm : m ≤ 30) (hl : l ≤ 3) :
    CellEast (fun i j => 15 * (j : ℝ) - (i : ℝ) / 4) (fun i _ => (i : ℝ)) m l := by
  have hm' : (m : ℝ) ≤ 30 := by exact_mod_cast hm
  have hl' : (l : ℝ) ≤ 3 := by exact_mod_cast hl
  have h0 : (0 : ℝ) ≤ m := by positivity
  have h1 : (0 : ℝ) ≤ l := by positivity
  constructor
  · intro a ha b hb
    interval_cases a <;> interval_cases b <;> push_cast <;> rw [abs_lt, abs_lt] <;> refine ⟨⟨?_, ?_⟩, ?_, ?_⟩ <;> linarith
  · intro a ha b hb
    interval_cases a <;> interval_cases b <;> push_cast <;> constructor <;> linarith

example : ∃ A A', (xyz2lonlat (val 1) (val (8 / 10)) true (pt (cellMean 1 (fun i j => 15 * (j : ℝ) - (i : ℝ) / 4) (fun i _ => (i : ℝ)) 7 2 (1 / 3) 0))).1
      = val A ∧
    (xyz2lonlat (val 1) (val (8 / 10)) true (pt (cellMean 1 (fun i j => 15 * (j : ℝ) - (i : ℝ) / 4) (fun i _ => (i : ℝ)) 7 2 (1 / 3) (1 / 8)))).1
      = val A' ∧ A < A' :=
  C103_cell 1 (8 / 10) true (by norm_num) _ _ 7 2 _ _ _ (by norm_num) (by norm_num) (by norm_num) (by norm_num) (by norm_num)
    (askew_east 7 2 (by omega) (by omega))

/-- **C103 (one cell, latitudes)**: the latitudes reported for the points of a column of the cell strictly increase. -/
theorem C103_cell_lat (R thr : ℝ) (hR : 0 < R) (h1 : thr ≤ 1) (lon lat : Nat → Nat → ℝ) (m l : Nat) (t t' s : ℝ) (t0 : 0 ≤ t) (ht : t < t')
    (t1 : t' ≤ 1) (s0 : 0 ≤ s) (s1 : s ≤ 1) (h : CellNorth thr lat m l) :
    ∃ B B', (xyz2lonlat (val R) (val thr) true (pt (cellMean R lon lat m l t s))).2 = val B ∧
      (xyz2lonlat (val R) (val thr) true (pt (cellMean R lon lat m l t' s))).2 = val B' ∧ B < B' := by
  obtain ⟨g, h2⟩ := h
  have c00 := g 0 (by omega) 0 (by omega)
  have c01 := g 0 (by omega) 1 (by omega)
  have c10 := g 1 (by omega) 0 (by omega)
  have c11 := g 1 (by omega) 1 (by omega)
  have d0 := h2 0 (by omega)
  have d1 := h2 1 (by omega)
  simp only [Nat.add_zero] at c00 c01 c10 c11 d0 d1
  have r90 : rad 90 = π / 2 := by unfold rad; ring
  have sl : ∀ x y : ℝ, |x| ≤ 90 → |y| ≤ 90 → x < y → sin (rad x) < sin (rad y) := by
    intro x y hx hy hxy
    obtain ⟨x1, _⟩ := abs_le.1 hx
    obtain ⟨_, y2⟩ := abs_le.1 hy
    apply sin_lt_sin_of_lt_of_le_pi_div_two
    · rw [← r90, ← rad_neg]; exact mul_le_mul_of_nonneg_right x1 (by positivity)
    · rw [← r90]; exact mul_le_mul_of_nonneg_right y2 (by positivity)
    · exact rad_lt hxy
  have e0 := sl _ _ c00.1 c10.1 d0
  have e1 := sl _ _ c01.1 c11.1 d1
  obtain ⟨a00, b00⟩ := abs_lt.1 c00.2
  obtain ⟨a01, b01⟩ := abs_lt.1 c01.2
  obtain ⟨a10, b10⟩ := abs_lt.1 c10.2
  obtain ⟨a11, b11⟩ := abs_lt.1 c11.2
  generalize hz00 : sin (rad (lat m l)) = z00 at *
  generalize hz01 : sin (rad (lat m (l + 1))) = z01 at *
  generalize hz10 : sin (rad (lat (m + 1) l)) = z10 at *
  generalize hz11 : sin (rad (lat (m + 1) (l + 1))) = z11 at *
  -- the two rows
  have two : ∀ u v k : ℝ, -k < u → u < k → -k < v → v < k → ∀ s, 0 ≤ s → s ≤ 1 → -k < (1 - s) * u + s * v ∧ (1 - s) * u + s * v < k := by
    intro u v k u1 u2 v1 v2 s s0 s1
    have p1 : 0 ≤ (1 - s) * (u + k) := mul_nonneg (by linarith) (by linarith)
    have p2 : 0 ≤ s * (v + k) := mul_nonneg s0 (by linarith)
    have p3 : 0 ≤ (1 - s) * (k - u) := mul_nonneg (by linarith) (by linarith)
    have p4 : 0 ≤ s * (k - v) := mul_nonneg s0 (by linarith)
    rcases eq_or_lt_of_le s0 with e | e
    · rw [← e]; constructor <;> linarith
    · have p5 : 0 < s * (v + k) := mul_pos e (by linarith)
      have p6 : 0 < s * (k - v) := mul_pos e (by linarith)
      constructor <;> linarith
  obtain ⟨u1, u2⟩ := two z00 z01 thr a00 b00 a01 b01 s s0 s1
  obtain ⟨v1, v2⟩ := two z10 z11 thr a10 b10 a11 b11 s s0 s1
  have uv : (1 - s) * z00 + s * z01 < (1 - s) * z10 + s * z11 := by
    have p1 : 0 ≤ (1 - s) * (z10 - z00) := mul_nonneg (by linarith) (by linarith)
    rcases eq_or_lt_of_le s0 with e | e
    · rw [← e]; linarith
    · have p2 : 0 < s * (z11 - z01) := mul_pos e (by linarith)
      linarith
  generalize hu : (1 - s) * z00 + s * z01 = u at *
  generalize hv : (1 - s) * z10 + s * z11 = v at *
  have hz : ∀ t, (cellMean R lon lat m l t s).2.2 = R * ((1 - t) * u + t * v) := by
    intro t
    rw [← hu, ← hv, ← hz00, ← hz01, ← hz10, ← hz11]
    simp only [cellMean, bilinear, spherePoint]
    ring
  have one : ∀ t, 0 ≤ t → t ≤ 1 → (xyz2lonlat (val R) (val thr) true (pt (cellMean R lon lat m l t s))).2
      = val (90 - deg (arccos ((1 - t) * u + t * v))) := by
    intro t t0 t1
    obtain ⟨k1, k2⟩ := two u v thr u1 u2 v1 v2 t t0 t1
    have e : (cellMean R lon lat m l t s).2.2 / R = (1 - t) * u + t * v := by rw [hz, mul_div_cancel_left₀ _ hR.ne']
    unfold pt
    rw [xyz2lonlat_val _ _ _ _ _ _ hR]
    simp only [latFP, e]
    rw [if_pos ⟨trivial, abs_lt.2 ⟨k1, k2⟩⟩, if_pos (by
      rw [hz, abs_mul, abs_of_pos hR]
      have : |(1 - t) * u + t * v| ≤ 1 := abs_le.2 ⟨by linarith, by linarith⟩
      nlinarith), latZ, e]
  obtain ⟨k1, k2⟩ := two u v thr u1 u2 v1 v2 t t0 (by linarith)
  obtain ⟨k3, k4⟩ := two u v thr u1 u2 v1 v2 t' (by linarith) t1
  have lt : (1 - t) * u + t * v < (1 - t') * u + t' * v := by nlinarith
  refine ⟨_, _, one t t0 (by linarith), one t' (by linarith) t1, ?_⟩
  have := deg_lt (strictAntiOn_arccos ⟨by linarith, by linarith⟩ ⟨by linarith, by linarith⟩ lt)
  linarith

/-- the cells of a swath whose rows are `10°` apart on both sides of the equator meet the hypothesis of the latitude claims -/
private theorem tens_north (n : Nat) (hn : n ≤ 3) (l : Nat) : CellNorth (8 / 10) (fun i _ => 10 * (i : ℝ) - 20) n l := by
  constructor
  · intro a ha b hb
    have hn' : (n : ℝ) ≤ 3 := by exact_mod_cast hn
    have h0 : (0 : ℝ) ≤ n := by positivity
    have : ∀ x : ℝ, |x| ≤ 20 → |x| ≤ 90 ∧ |sin (rad x)| < 8 / 10 := by
      intro x h1
      have hp := pi_lt_d2
      have hp0 := pi_pos
      have r1 : |rad x| ≤ 20 * (3.15 / 180) := by
        have : |rad x| = |x| * (π / 180) := by
          rw [show rad x = x * (π / 180) by unfold rad; ring, abs_mul, abs_of_pos (by positivity : 0 < π / 180)]
        rw [this]
        exact mul_le_mul h1 (by linarith) (by positivity) (by norm_num)
      have : |sin (rad x)| ≤ |rad x| := abs_sin_le_abs
      exact ⟨by linarith, by norm_num at r1; linarith⟩
    refine this _ ?_
    interval_cases a <;> push_cast <;> rw [abs_le] <;> constructor <;> linarith
  · intro b hb
    push_cast
    linarith

example : ∃ B B', (xyz2lonlat (val 1) (val (8 / 10)) true (pt (cellMean 1 (fun _ j => 50 * (j : ℝ)) (fun i _ => 10 * (i : ℝ) - 20) 1 0 (1 / 4) (1 / 2)))).2
      = val B ∧
    (xyz2lonlat (val 1) (val (8 / 10)) true (pt (cellMean 1 (fun _ j => 50 * (j : ℝ)) (fun i _ => 10 * (i : ℝ) - 20) 1 0 (3 / 4) (1 / 2)))).2
      = val B' ∧ B < B' :=
  C103_cell_lat 1 (8 / 10) (by norm_num) (by norm_num) _ _ 1 0 _ _ _ (by norm_num) (by norm_num) (by norm_num) (by norm_num) (by norm_num)
    (tens_north 1 (by omega) 0)

/-- the order in the cells and the common points of neighbours give the order of all -/
private theorem fp_row {n : Nat} {g : Nat → ℝ → FP ℝ}
    (hin : ∀ l < n, ∀ s s', 0 ≤ s → s < s' → s' ≤ 1 → ∃ A A', g l s = val A ∧ g l s' = val A' ∧ A < A')
    (hj : ∀ l, l + 1 < n → g l 1 = g (l + 1) 0) {l l' : Nat} (hl' : l' < n) {s s' : ℝ} (s0 : 0 ≤ s) (s1 : s ≤ 1)
    (s0' : 0 ≤ s') (s1' : s' ≤ 1) (h : (l : ℝ) + s < l' + s') : ∃ A A', g l s = val A ∧ g l' s' = val A' ∧ A < A' := by
  let f : Nat → ℝ → ℝ := fun l s => match g l s with | val x => x | bad => 0
  have hf : ∀ l < n, ∀ s, 0 ≤ s → s ≤ 1 → g l s = val (f l s) := by
    intro l hl s s0 s1
    have : ∃ A, g l s = val A := by
      rcases lt_or_ge s 1 with h | h
      · obtain ⟨A, _, e, _⟩ := hin l hl s 1 s0 h le_rfl
        exact ⟨A, e⟩
      · obtain ⟨_, A, _, e, _⟩ := hin l hl 0 s le_rfl (by linarith) s1
        exact ⟨A, e⟩
    obtain ⟨A, e⟩ := this
    simp only [f, e]
  have hle : l ≤ l' := by
    have : (l : ℝ) < l' + 1 := by linarith
    have : l < l' + 1 := by exact_mod_cast this
    omega
  refine ⟨f l s, f l' s', hf l (by omega) s s0 s1, hf l' hl' s' s0' s1', ?_⟩
  refine row_order (n := n) (f := f) ?_ ?_ l l' hl' s s' s0 s1 s0' s1' h hle
  · intro l hl s s' s0 hs s1
    obtain ⟨A, A', e1, e2, h⟩ := hin l hl s s' s0 hs s1
    simp only [f, e1, e2]
    exact h
  · intro l hl
    simp only [f, hj l hl]

private theorem mean_right (R : ℝ) (lon lat : Nat → Nat → ℝ) (m l : Nat) (t : ℝ) :
    cellMean R lon lat m l t 1 = cellMean R lon lat m (l + 1) t 0 := by
  simp [cellMean, bilinear]

private theorem mean_down (R : ℝ) (lon lat : Nat → Nat → ℝ) (m l : Nat) (s : ℝ) :
    cellMean R lon lat m l 1 s = cellMean R lon lat (m + 1) l 0 s := by
  simp [cellMean, bilinear]

private theorem frac01 {u F : Nat} (hu : u < F) : 0 ≤ (u : ℝ) / F ∧ (u : ℝ) / F ≤ 1 := by
  refine ⟨by positivity, ?_⟩
  rw [div_le_one (by exact_mod_cast (by omega : 0 < F))]
  exact_mod_cast hu.le

private theorem bil_lt {V : Nat → Nat → ℝ} {m l : Nat} {t s s' : ℝ} (t0 : 0 ≤ t) (t1 : t ≤ 1) (h : s < s') (h0 : V m l < V m (l + 1))
    (h1 : V (m + 1) l < V (m + 1) (l + 1)) : bilinear V m l t s < bilinear V m l t s' := by
  have e : bilinear V m l t s' - bilinear V m l t s
      = (s' - s) * ((1 - t) * (V m (l + 1) - V m l) + t * (V (m + 1) (l + 1) - V (m + 1) l)) := by unfold bilinear; ring
  have p : 0 < (1 - t) * (V m (l + 1) - V m l) + t * (V (m + 1) (l + 1) - V (m + 1) l) := by
    have p1 : 0 ≤ (1 - t) * (V m (l + 1) - V m l) := mul_nonneg (by linarith) (by linarith)
    rcases eq_or_lt_of_le t0 with e | e
    · rw [← e]; linarith
    · have : 0 < t * (V (m + 1) (l + 1) - V (m + 1) l) := mul_pos e (by linarith)
      linarith
  have := mul_pos (sub_pos.2 h) p
  linarith

private theorem bil_lt' {V : Nat → Nat → ℝ} {m l : Nat} {t t' s : ℝ} (s0 : 0 ≤ s) (s1 : s ≤ 1) (h : t < t') (h0 : V m l < V (m + 1) l)
    (h1 : V m (l + 1) < V (m + 1) (l + 1)) : bilinear V m l t s < bilinear V m l t' s := by
  have e : ∀ t, bilinear V m l t s = bilinear (fun a b => V b a) l m s t := by intro t; unfold bilinear; ring
  rw [e, e]
  exact bil_lt s0 s1 h h0 h1

private theorem split {F q : Nat} (hF : 1 ≤ F) : q / F * F + q % F = q ∧ q % F < F ∧ ((q / F : ℕ) : ℝ) + ((q % F : ℕ) : ℝ) / F = q / F := by
  have h := Nat.div_add_mod' q F
  have hF' : (F : ℝ) ≠ 0 := by exact_mod_cast (by omega : F ≠ 0)
  refine ⟨h, Nat.mod_lt _ hF, ?_⟩
  rw [eq_div_iff hF', add_mul, div_mul_cancel₀ _ hF']
  exact_mod_cast h

/-- **C103 (VII, longitudes)**: along a row of pixels between two rows of ties whose cells are all `CellEast` the longitudes strictly
increase, whichever of its two ways the code takes. -/
theorem C103_vii (N T F c : Nat) (hN : 1 ≤ N) (hT : 2 ≤ T) (hF : 1 ≤ F) (hc : 2 ≤ c) (dims : String × String)
    (lon lat : Nat → Nat → ℝ) (thr zthr : ℝ) :
    ∃ lo la, tiePointsGeoInterpolation (numArray dims (N * T) c lon) (numArray dims (N * T) c lat) T F (val thr) (val zthr)
        = .ok (lo, la) ∧
      ∀ j < N, ∀ k, k + 1 < T → ∀ u < F, (∀ l, l + 1 < c → CellEast lon lat (j * T + k) l) →
        ∀ q q', q < q' → q' < (c - 1) * F →
        ∃ A A', lo.at (j * ((T - 1) * F) + (k * F + u)) q = val A ∧ lo.at (j * ((T - 1) * F) + (k * F + u)) q' = val A' ∧ A < A' := by
  obtain ⟨lo, la, cart, h1, h2⟩ := vii_two_ways N T F c hN hT hF hc dims lon lat thr zthr
  refine ⟨lo, la, h1, ?_⟩
  intro j hj k hk u hu hcell q q' hq hq'
  let g : Nat → ℝ → FP ℝ := fun l s =>
    if cart then (xyz2lonlat (val viiRadius) (val zthr) true (pt (cellMean viiRadius lon lat (j * T + k) l ((u : ℝ) / F) s))).1
    else val (bilinear lon (j * T + k) l ((u : ℝ) / F) s)
  have hg : ∀ q, q < (c - 1) * F → lo.at (j * ((T - 1) * F) + (k * F + u)) q = g (q / F) (((q % F : ℕ) : ℝ) / F) := by
    intro q hq
    obtain ⟨e1, e2, _⟩ := split (q := q) hF
    have hl : q / F < c - 1 := Nat.div_lt_of_lt_mul (by rw [Nat.mul_comm]; exact hq)
    have := congrArg Prod.fst (h2 j hj k hk u hu (q / F) (by omega) (q % F) e2)
    rw [e1] at this
    refine this.trans ?_
    simp only [g]
    cases cart <;> simp
  rw [hg q (by omega), hg q' hq']
  obtain ⟨_, m1, x1⟩ := split (q := q) hF
  obtain ⟨_, m2, x2⟩ := split (q := q') hF
  refine fp_row (n := c - 1) (g := g) ?_ ?_ (Nat.div_lt_of_lt_mul (by rw [Nat.mul_comm]; exact hq')) (frac01 m1).1 (frac01 m1).2
    (frac01 m2).1 (frac01 m2).2 ?_
  · intro l hl s s' s0 hs s1
    have hc := hcell l (by omega)
    cases cart
    · exact ⟨_, _, rfl, rfl, bil_lt (frac01 hu).1 (frac01 hu).2 hs (hc.2 0 (by omega) 0 (by omega)).1 (hc.2 1 (by omega) 1 (by omega)).1⟩
    · exact C103_cell viiRadius zthr true viiRadius_pos lon lat (j * T + k) l _ s s' (frac01 hu).1 (frac01 hu).2 s0 hs s1 hc
  · intro l hl
    simp only [g]
    rw [mean_right]
    cases cart <;> simp [bilinear]
  · rw [x1, x2]
    have : (0 : ℝ) < F := by exact_mod_cast (by omega : 0 < F)
    apply div_lt_div_of_pos_right _ this
    exact_mod_cast hq

/-- **C103 (VII, latitudes)**: down a column of pixels of a granule between two columns of ties whose cells are all `CellNorth` the
latitudes strictly increase. -/
theorem C103_vii_lat (N T F c : Nat) (hN : 1 ≤ N) (hT : 2 ≤ T) (hF : 1 ≤ F) (hc : 2 ≤ c) (dims : String × String)
    (lon lat : Nat → Nat → ℝ) (thr zthr : ℝ) (hz : zthr ≤ 1) :
    ∃ lo la, tiePointsGeoInterpolation (numArray dims (N * T) c lon) (numArray dims (N * T) c lat) T F (val thr) (val zthr)
        = .ok (lo, la) ∧
      ∀ j < N, ∀ l, l + 1 < c → ∀ w < F, (∀ k, k + 1 < T → CellNorth zthr lat (j * T + k) l) →
        ∀ q q', q < q' → q' < (T - 1) * F →
        ∃ B B', la.at (j * ((T - 1) * F) + q) (l * F + w) = val B ∧ la.at (j * ((T - 1) * F) + q') (l * F + w) = val B' ∧ B < B' := by
  obtain ⟨lo, la, cart, h1, h2⟩ := vii_two_ways N T F c hN hT hF hc dims lon lat thr zthr
  refine ⟨lo, la, h1, ?_⟩
  intro j hj l hl w hw hcell q q' hq hq'
  let g : Nat → ℝ → FP ℝ := fun k t =>
    if cart then (xyz2lonlat (val viiRadius) (val zthr) true (pt (cellMean viiRadius lon lat (j * T + k) l t ((w : ℝ) / F)))).2
    else val (bilinear lat (j * T + k) l t ((w : ℝ) / F))
  have hg : ∀ q, q < (T - 1) * F → la.at (j * ((T - 1) * F) + q) (l * F + w) = g (q / F) (((q % F : ℕ) : ℝ) / F) := by
    intro q hq
    obtain ⟨e1, e2, _⟩ := split (q := q) hF
    have hk : q / F < T - 1 := Nat.div_lt_of_lt_mul (by rw [Nat.mul_comm]; exact hq)
    have := congrArg Prod.snd (h2 j hj (q / F) (by omega) (q % F) e2 l hl w hw)
    rw [e1] at this
    refine this.trans ?_
    simp only [g]
    cases cart <;> simp
  rw [hg q (by omega), hg q' hq']
  obtain ⟨_, m1, x1⟩ := split (q := q) hF
  obtain ⟨_, m2, x2⟩ := split (q := q') hF
  refine fp_row (n := T - 1) (g := g) ?_ ?_ (Nat.div_lt_of_lt_mul (by rw [Nat.mul_comm]; exact hq')) (frac01 m1).1 (frac01 m1).2
    (frac01 m2).1 (frac01 m2).2 ?_
  · intro k hk t t' t0 ht t1
    have hc := hcell k (by omega)
    cases cart
    · exact ⟨_, _, rfl, rfl, bil_lt' (frac01 hw).1 (frac01 hw).2 ht (hc.2 0 (by omega)) (hc.2 1 (by omega))⟩
    · exact C103_cell_lat viiRadius zthr viiRadius_pos hz lon lat (j * T + k) l t t' _ t0 ht t1 (frac01 hw).1 (frac01 hw).2 hc
  · intro k hk
    simp only [g]
    rw [mean_down]
    cases cart <;> simp [bilinear, Nat.add_assoc]
  · rw [x1, x2]
    have : (0 : ℝ) < F := by exact_mod_cast (by omega : 0 < F)
    apply div_lt_div_of_pos_right _ this
    exact_mod_cast hq

example (dims : String × String) : ∃ lo la, tiePointsGeoInterpolation (numArray dims (2 * 2) 3 fun _ j => (5 * j : ℝ))
      (numArray dims (2 * 2) 3 fun i _ => 10 * (i : ℝ) - 20) 2 8 (val 10) (val (8 / 10)) = .ok (lo, la) ∧
    ∃ B B' : ℝ, la.at 9 11 = val B ∧ la.at 14 11 = val B' ∧ B < B' := by
  obtain ⟨lo, la, h1, h2⟩ := C103_vii_lat 2 2 8 3 (by omega) (by omega) (by omega) (by omega) dims (fun _ j => (5 * j : ℝ))
    (fun i _ => 10 * (i : ℝ) - 20) 10 (8 / 10) (by norm_num)
  obtain ⟨B, B', e1, e2, h⟩ := h2 1 (by omega) 1 (by omega) 3 (by omega)
    (fun k hk => tens_north (1 * 2 + k) (by omega) 1) 1 6 (by omega) (by omega)
  exact ⟨lo, la, h1, B, B', by simpa using e1, by simpa using e2, h⟩

/-- positions of two points of an axis, in cells -/
private theorem place {X : List ℝ} (hX : X.Pairwise (· < ·)) {x x' : ℝ} (hx : x < x') {j j' : Nat} (hj : j + 1 < X.length)
    (hj' : j' + 1 < X.length) (h1 : X[j] ≤ x) (h2 : x ≤ X[j + 1]) (h3 : X[j'] ≤ x') (h4 : x' ≤ X[j' + 1]) :
    (0 ≤ (x - X[j]) / (X[j + 1] - X[j]) ∧ (x - X[j]) / (X[j + 1] - X[j]) ≤ 1) ∧
    (0 ≤ (x' - X[j']) / (X[j' + 1] - X[j']) ∧ (x' - X[j']) / (X[j' + 1] - X[j']) ≤ 1) ∧
    (j : ℝ) + (x - X[j]) / (X[j + 1] - X[j]) < j' + (x' - X[j']) / (X[j' + 1] - X[j']) := by
  have d1 : X[j] < X[j + 1] := sorted_lt hX (Nat.lt_succ_self j) hj
  have d2 : X[j'] < X[j' + 1] := sorted_lt hX (Nat.lt_succ_self j') hj'
  have f1 : 0 ≤ (x - X[j]) / (X[j + 1] - X[j]) := div_nonneg (by linarith) (by linarith)
  have f2 : (x - X[j]) / (X[j + 1] - X[j]) ≤ 1 := by rw [div_le_one (by linarith)]; linarith
  have f3 : 0 ≤ (x' - X[j']) / (X[j' + 1] - X[j']) := div_nonneg (by linarith) (by linarith)
  have f4 : (x' - X[j']) / (X[j' + 1] - X[j']) ≤ 1 := by rw [div_le_one (by linarith)]; linarith
  refine ⟨⟨f1, f2⟩, ⟨f3, f4⟩, ?_⟩
  rcases lt_trichotomy j j' with h | h | h
  · by_cases e : j + 1 = j'
    · subst e
      push_cast
      rcases lt_or_eq_of_le h2 with g | g
      · have : (x - X[j]) / (X[j + 1] - X[j]) < 1 := by rw [div_lt_one (by linarith)]; linarith
        linarith
      · have : 0 < (x' - X[j + 1]) / (X[j + 1 + 1] - X[j + 1]) := div_pos (by linarith) (by linarith)
        linarith
    · have hr : (j : ℝ) + 2 ≤ j' := by exact_mod_cast (by omega : j + 2 ≤ j')
      linarith
  · subst h
    have := div_lt_div_of_pos_right (show x - X[j] < x' - X[j] by linarith) (show 0 < X[j + 1] - X[j] by linarith)
    linarith
  · have le : X[j' + 1] ≤ X[j] := sorted_le hX h (by omega)
    linarith

/-- **C103 (grids, longitudes)**: along a row of a geographic grid interpolator, inside the grid, the longitudes strictly increase with
the position when the cells of the row are `CellEast`. -/
theorem C103_grid (tok : TokIn Unit (FP ℝ) → Nat) (be : Bool) (fill : Option (FP ℝ)) (Y X : List ℝ)
    (hY : Y.Pairwise (· < ·)) (hX : X.Pairwise (· < ·)) (h2y : 2 ≤ Y.length) (h2x : 2 ≤ X.length)
    (lons lats : List (List ℝ)) (h1 : Dims Y.length X.length lons) (h2 : Dims Y.length X.length lats) (fy fx : List ℝ)
    (hin : be = true → (∀ y ∈ fy, Inside Y y) ∧ ∀ x ∈ fx, Inside X x) :
    ∃ is lo la, mkGeo (singleGrid (fun _ => linearKernel) be fill (Y.map val) (X.map val))
        [.array (vals lons), .array (vals lats)] = .ok is ∧
      interpolateGeo tok is [fy.map val, fx.map val] none () = .ok (lo, la) ∧
      (∀ a i, ∀ (ha : a < fy.length) (hi : i + 1 < Y.length), Y[i] ≤ fy[a] → fy[a] ≤ Y[i + 1] →
        (∀ j, j + 1 < X.length → CellEast (entries lons) (entries lats) i j) →
        ∀ b b' j j', ∀ (hb : b < fx.length) (hb' : b' < fx.length) (hj : j + 1 < X.length) (hj' : j' + 1 < X.length),
          X[j] ≤ fx[b] → fx[b] ≤ X[j + 1] → X[j'] ≤ fx[b'] → fx[b'] ≤ X[j' + 1] → fx[b] < fx[b'] →
          ∃ A A', el (row lo a) b = val A ∧ el (row lo a) b' = val A' ∧ A < A') ∧
      ∀ b j, ∀ (hb : b < fx.length) (hj : j + 1 < X.length), X[j] ≤ fx[b] → fx[b] ≤ X[j + 1] →
        (∀ i, i + 1 < Y.length → CellNorth (8 / 10) (entries lats) i j) →
        ∀ a a' i i', ∀ (ha : a < fy.length) (ha' : a' < fy.length) (hi : i + 1 < Y.length) (hi' : i' + 1 < Y.length),
          Y[i] ≤ fy[a] → fy[a] ≤ Y[i + 1] → Y[i'] ≤ fy[a'] → fy[a'] ≤ Y[i' + 1] → fy[a] < fy[a'] →
          ∃ B B', el (row la a) b = val B ∧ el (row la a') b = val B' ∧ B < B' := by
  obtain ⟨is, lo, la, e1, e2, _, _, e5⟩ := grid_geo_point tok be fill Y X hY hX h2y h2x lons lats h1 h2 fy fx hin
  have gY : ∀ k (h : k < Y.length), Y.getD k 0 = Y[k] := fun k h => getD_of_lt Y 0 h
  have gX : ∀ k (h : k < X.length), X.getD k 0 = X[k] := fun k h => getD_of_lt X 0 h
  have ep : ∀ i j (hi : i + 1 < Y.length) (hj : j + 1 < X.length) (y x : ℝ), bilinPoint Y X lons lats i j y x
      = cellMean 6370997 (entries lons) (entries lats) i j ((y - Y[i]) / (Y[i + 1] - Y[i])) ((x - X[j]) / (X[j + 1] - X[j])) := by
    intro i j hi hj y x
    simp only [bilinPoint, bilin, cellMean, bilinear, entries, gY i (by omega), gY (i + 1) hi, gX j (by omega), gX (j + 1) hj]
  refine ⟨is, lo, la, e1, e2, ?_, ?_⟩
  · intro a i ha hi y1 y2 hcell b b' j j' hb hb' hj hj' x1 x2 x1' x2' hx
    rw [(e5 a b i j ha hb hi hj y1 y2 x1 x2).1, (e5 a b' i j' ha hb' hi hj' y1 y2 x1' x2').1, ep i j hi hj, ep i j' hi hj']
    have hY' : Y[i] < Y[i + 1] := sorted_lt hY (Nat.lt_succ_self i) hi
    obtain ⟨⟨s0, s1⟩, ⟨s0', s1'⟩, hlt⟩ := place hX hx hj hj' x1 x2 x1' x2'
    refine fp_row (n := X.length - 1) (g := fun j s => (xyz2lonlat (val 6370997) (val (8 / 10)) true (pt (cellMean 6370997 (entries lons)
      (entries lats) i j ((fy[a] - Y[i]) / (Y[i + 1] - Y[i])) s))).1) ?_ ?_ (by omega) s0 s1 s0' s1' hlt
    · intro l hl s s' s0 hs s1
      exact C103_cell 6370997 (8 / 10) true (by norm_num) _ _ i l _ s s' (div_nonneg (by linarith) (by linarith))
        (by rw [div_le_one (by linarith)]; linarith) s0 hs s1 (hcell l (by omega))
    · intro l hl
      simp only [mean_right]
  · intro b j hb hj x1 x2 hcell a a' i i' ha ha' hi hi' y1 y2 y1' y2' hy
    rw [(e5 a b i j ha hb hi hj y1 y2 x1 x2).2, (e5 a' b i' j ha' hb hi' hj y1' y2' x1 x2).2, ep i j hi hj, ep i' j hi' hj]
    have hX' : X[j] < X[j + 1] := sorted_lt hX (Nat.lt_succ_self j) hj
    obtain ⟨⟨s0, s1⟩, ⟨s0', s1'⟩, hlt⟩ := place hY hy hi hi' y1 y2 y1' y2'
    refine fp_row (n := Y.length - 1) (g := fun i t => (xyz2lonlat (val 6370997) (val (8 / 10)) true (pt (cellMean 6370997 (entries lons)
      (entries lats) i j t ((fx[b] - X[j]) / (X[j + 1] - X[j]))))).2) ?_ ?_ (by omega) s0 s1 s0' s1' hlt
    · intro k hk t t' t0 ht t1
      exact C103_cell_lat 6370997 (8 / 10) (by norm_num) (by norm_num) _ _ k j t t' _ t0 ht t1 (div_nonneg (by linarith) (by linarith))
        (by rw [div_le_one (by linarith)]; linarith) (hcell k (by omega))
    · intro k hk
      simp only [mean_down]

example (tok : TokIn Unit (FP ℝ) → Nat) : ∃ is lo la, mkGeo (singleGrid (fun _ => linearKernel) true none ([0, 10].map val) ([0, 1, 5].map val))
      [.array (vals [[10, 20, 40], [11, 21, 44]]), .array (vals [[60, 61, 62], [55, 55, 54]])] = .ok is ∧
    interpolateGeo tok is [[3].map val, [0, 1 / 2, 4].map val] none () = .ok (lo, la) ∧
    ∃ A A' : ℝ, el (row lo 0) 1 = val A ∧ el (row lo 0) 2 = val A' ∧ A < A' := by
  obtain ⟨is, lo, la, h1, h2, h3, _⟩ := C103_grid tok true none [0, 10] [0, 1, 5] (by simp) (by norm_num) (by simp) (by simp)
    [[10, 20, 40], [11, 21, 44]] [[60, 61, 62], [55, 55, 54]] ⟨rfl, by simp⟩ ⟨rfl, by simp⟩ [3] [0, 1 / 2, 4]
    (fun _ => by constructor <;> (intro z hz; simp at hz; (try rcases hz with rfl | rfl | rfl) <;> norm_num [Grid.Inside]))
  refine ⟨is, lo, la, h1, h2, h3 0 0 (by simp) (by simp) (by norm_num) (by norm_num) ?_ 1 2 0 1 (by simp) (by simp) (by simp) (by simp)
    (by norm_num) (by norm_num) (by norm_num) (by norm_num) (by norm_num)⟩
  intro j hj
  have : j = 0 ∨ j = 1 := by simp at hj; omega
  constructor
  · intro a ha b hb
    rcases this with rfl | rfl <;> interval_cases a <;> interval_cases b <;> norm_num [entries, abs_lt]
  · intro a ha b hb
    rcases this with rfl | rfl <;> interval_cases a <;> interval_cases b <;> norm_num [entries]

/-- a pixel of the simple MODIS interpolation inside a cell -/
theorem simple_point (C s : Nat) (lon lat : Nat → Nat → ℝ) (a b : Nat) (ha : a + 1 < 10) (hb : b + 1 < C) (t x : ℝ)
    (t0 : 0 ≤ t) (t1 : t ≤ 1) (x0 : 0 ≤ x) (x1 : x ≤ 1) : bilinLonLat C s lon lat (a + t) (b + x)
      = xyz2lonlat (val 6370997) (val (8 / 10)) true (pt (cellMean 6370997 lon lat (s * 10 + a) b t x)) := by
  have ext : ∀ V : Nat → Nat → ℝ, bilinExt 10 C (fun p q => V (s * 10 + p) q) (a + t) (b + x) = bilinear V (s * 10 + a) b t x := by
    intro V
    unfold bilinExt
    rw [lin1_cell (c := a) _ (by omega) (Or.inr (by linarith)) (Or.inr (by linarith))]
    rw [lin1_cell (c := b) _ (by omega) (Or.inr (by linarith)) (Or.inr (by linarith))]
    rw [lin1_cell (c := b) _ (by omega) (Or.inr (by linarith)) (Or.inr (by linarith))]
    simp only [bilinear, add_sub_cancel_left, Nat.add_assoc]
  unfold bilinLonLat
  rw [ext (tieR lon lat 0), ext (tieR lon lat 1), ext (tieR lon lat 2)]
  rw [← (C06_copies_agree 6370997 (8 / 10) _ (by norm_num)).1 true, Verif.Modis.earthRadius_val, cyThr_eq, Verif.Modis.defaultThr_val,
    show (4 / 5 : ℝ) = 8 / 10 by norm_num]
  unfold cellMean pt spherePoint tieR
  simp

/-- **C103 (simple MODIS)**: along a row of fine pixels between two tie rows of a scan, up to the last tie column, the longitudes strictly
increase when the cells between the two are `CellEast`; down the fine pixels of a scan between its first and last tie rows the latitudes
strictly increase when the cells are `CellNorth`. -/
theorem C103_simple (c : SConv) (n C : Nat) (hC : 2 ≤ C) (lon lat : Nat → Nat → ℝ) (junk : Nat → Nat → Nat → Nat → FP ℝ) :
    ∃ out, c.run Verif.ModisSimple.mcLinear ⟨n * 10, C, fun i j => val (lon i j)⟩ ⟨n * 10, C, fun i j => val (lat i j)⟩ junk = .ok out ∧
      (∀ s < n, ∀ j < 10 * c.factor, ∀ a : ℕ, a + 1 < 10 → ∀ t : ℝ, ((j : ℝ) + 1 / 2) / c.factor - 1 / 2 = a + t → 0 ≤ t → t ≤ 1 →
        (∀ b, b + 1 < C → CellEast lon lat (s * 10 + a) b) → ∀ i i', i < i' → i' < (C - 1) * c.factor →
        ∃ A A', out.1.cell (s * (10 * c.factor) + j) i = val A ∧ out.1.cell (s * (10 * c.factor) + j) i' = val A' ∧ A < A') ∧
      ∀ s < n, ∀ i < (C - 1) * c.factor, (∀ a, a + 1 < 10 → CellNorth (8 / 10) lat (s * 10 + a) (i / c.factor)) →
        ∀ j j', j < j' → j' < 10 * c.factor → ∀ a a' : ℕ, a + 1 < 10 → a' + 1 < 10 → ∀ t t' : ℝ,
        ((j : ℝ) + 1 / 2) / c.factor - 1 / 2 = a + t → 0 ≤ t → t ≤ 1 → ((j' : ℝ) + 1 / 2) / c.factor - 1 / 2 = a' + t' → 0 ≤ t' → t' ≤ 1 →
        ∃ B B', out.2.cell (s * (10 * c.factor) + j) i = val B ∧ out.2.cell (s * (10 * c.factor) + j') i = val B' ∧ B < B' := by
  obtain ⟨out, h1, h2⟩ := C36_bilinear c n C hC lon lat junk
  have hF : 1 ≤ c.factor := by cases c <;> decide
  have hF' : (0 : ℝ) < c.factor := by exact_mod_cast (by omega : 0 < c.factor)
  have less : ∀ i, i < (C - 1) * c.factor → i / c.factor < C - 1 ∧ i < C * c.factor := by
    intro i hi
    exact ⟨Nat.div_lt_of_lt_mul (by rw [Nat.mul_comm]; exact hi), lt_of_lt_of_le hi (Nat.mul_le_mul_right _ (by omega))⟩
  refine ⟨out, h1, ?_, ?_⟩
  · intro s hs j hj a ha t ht t0 t1 hcell i i' hii hi'
    have at' : ∀ i, i < (C - 1) * c.factor → out.1.cell (s * (10 * c.factor) + j) i = (xyz2lonlat (val 6370997) (val (8 / 10)) true
        (pt (cellMean 6370997 lon lat (s * 10 + a) (i / c.factor) t (((i % c.factor : ℕ) : ℝ) / c.factor)))).1 := by
      intro i hi
      obtain ⟨_, m1, x1⟩ := split (q := i) hF
      have h3 := h2 s j i hs hj (less i hi).2
      rw [ht, ← x1, simple_point C s lon lat a _ ha (by have := (less i hi).1; omega) t _ t0 t1 (frac01 m1).1 (frac01 m1).2] at h3
      exact congrArg Prod.fst h3
    rw [at' i (by omega), at' i' hi']
    obtain ⟨_, m1, x1⟩ := split (q := i) hF
    obtain ⟨_, m2, x2⟩ := split (q := i') hF
    refine fp_row (n := C - 1) (g := fun b x => (xyz2lonlat (val 6370997) (val (8 / 10)) true
      (pt (cellMean 6370997 lon lat (s * 10 + a) b t x))).1) ?_ ?_ (less i' hi').1 (frac01 m1).1 (frac01 m1).2 (frac01 m2).1
      (frac01 m2).2 ?_
    · intro l hl s' s'' s0 hs s1
      exact C103_cell 6370997 (8 / 10) true (by norm_num) _ _ _ l _ s' s'' t0 t1 s0 hs s1 (hcell l (by omega))
    · intro l hl
      simp only [mean_right]
    · rw [x1, x2]
      apply div_lt_div_of_pos_right _ hF'
      exact_mod_cast hii
  · intro s hs i hi hcell j j' hjj hj' a a' ha ha' t t' ht t0 t1 ht' t0' t1'
    obtain ⟨_, m1, x1⟩ := split (q := i) hF
    have at' : ∀ j, j < 10 * c.factor → ∀ a t, a + 1 < 10 → 0 ≤ t → t ≤ 1 → ((j : ℝ) + 1 / 2) / c.factor - 1 / 2 = (a : ℕ) + t →
        out.2.cell (s * (10 * c.factor) + j) i = (xyz2lonlat (val 6370997) (val (8 / 10)) true
        (pt (cellMean 6370997 lon lat (s * 10 + a) (i / c.factor) t (((i % c.factor : ℕ) : ℝ) / c.factor)))).2 := by
      intro j hj a t ha t0 t1 ht
      have h3 := h2 s j i hs hj (less i hi).2
      rw [ht, ← x1, simple_point C s lon lat a _ ha (by have := (less i hi).1; omega) t _ t0 t1 (frac01 m1).1 (frac01 m1).2] at h3
      exact congrArg Prod.snd h3
    rw [at' j (by omega) a t ha t0 t1 ht, at' j' hj' a' t' ha' t0' t1' ht']
    refine fp_row (n := 9) (g := fun a t => (xyz2lonlat (val 6370997) (val (8 / 10)) true
      (pt (cellMean 6370997 lon lat (s * 10 + a) (i / c.factor) t (((i % c.factor : ℕ) : ℝ) / c.factor)))).2) ?_ ?_ (by omega) t0 t1 t0'
      t1' ?_
    · intro k hk t t' t0 ht t1
      exact C103_cell_lat 6370997 (8 / 10) (by norm_num) (by norm_num) _ _ _ _ t t' _ t0 ht t1 (frac01 m1).1 (frac01 m1).2
        (hcell k (by omega))
    · intro k hk
      simp only [mean_down, Nat.add_assoc]
    · rw [← ht, ← ht']
      have : ((j : ℝ) + 1 / 2) / c.factor < ((j' : ℝ) + 1 / 2) / c.factor := by
        apply div_lt_div_of_pos_right _ hF'
        have : (j : ℝ) < j' := by exact_mod_cast hjj
        linarith
      linarith

example (junk : Nat → Nat → Nat → Nat → FP ℝ) : ∃ out, SConv.run .km1to250 Verif.ModisSimple.mcLinear
      ⟨2 * 10, 5, fun i j => val (15 * (j : ℝ) - (i : ℝ) / 4)⟩ ⟨2 * 10, 5, fun i _ => val (i : ℝ)⟩ junk = .ok out ∧
    ∃ A A' : ℝ, out.1.cell 45 3 = val A ∧ out.1.cell 45 15 = val A' ∧ A < A' := by
  obtain ⟨out, h1, h2, _⟩ := C103_simple .km1to250 2 5 (by omega) (fun i j => 15 * (j : ℝ) - (i : ℝ) / 4) (fun i _ => (i : ℝ)) junk
  exact ⟨out, h1, h2 1 (by omega) 5 (by decide) 0 (by omega) (7 / 8) (by norm_num [SConv.factor]) (by norm_num) (by norm_num)
    (fun b hb => askew_east _ b (by omega) (by omega)) 3 15 (by omega) (by decide)⟩

/-- **C103 (wide cells, refuted)**: between ties 240 degrees apart, at 120 degrees west and east on the equator, the longitudes do not
keep their order: a third of the way the code reports 150 degrees west. -/
theorem C103_wide_false (R thr : ℝ) (low : Bool) (hR : 0 < R) :
    (xyz2lonlat (val R) (val thr) low (pt (cellMean R (fun _ l => if l = 0 then -120 else 120) (fun _ _ => 0) 0 0 0 0))).1 = val (-120) ∧
    (xyz2lonlat (val R) (val thr) low (pt (cellMean R (fun _ l => if l = 0 then -120 else 120) (fun _ _ => 0) 0 0 0 (1 / 3)))).1
      = val (-150) := by
  have hp := pi_pos
  have r3 : √3 * √3 = 3 := mul_self_sqrt (by norm_num)
  have c120 : cos (rad 120) = -(1 / 2) := by
    rw [show rad 120 = π - π / 3 by unfold rad; ring, cos_pi_sub, cos_pi_div_three]
  have s120 : sin (rad 120) = √3 / 2 := by
    rw [show rad 120 = π - π / 3 by unfold rad; ring, sin_pi_sub, sin_pi_div_three]
  have c150 : cos (rad 150) = -(√3 / 2) := by
    rw [show rad 150 = π - π / 6 by unfold rad; ring, cos_pi_sub, cos_pi_div_six]
  have s150 : sin (rad 150) = 1 / 2 := by
    rw [show rad 150 = π - π / 6 by unfold rad; ring, sin_pi_sub, sin_pi_div_six]
  have r0 : rad 0 = 0 := by unfold rad; ring
  have d : ∀ x : ℝ, deg (-rad x) = -x := fun x => by rw [← rad_neg, deg_rad]
  constructor
  · rw [reported (ρ := R) (β := -rad 120) low hR hR (by unfold rad; linarith) (by unfold rad; linarith), d]
    · simp [cellMean, bilinear, spherePoint, r0, rad_neg, c120]
    · simp [cellMean, bilinear, spherePoint, r0, rad_neg, s120]
  · rw [reported (ρ := R * √3 / 3) (β := -rad 150) low hR (by positivity) (by unfold rad; linarith) (by unfold rad; linarith), d]
    · simp [cellMean, bilinear, spherePoint, r0, rad_neg, c120, c150]
      linear_combination R / 6 * r3
    · simp [cellMean, bilinear, spherePoint, r0, rad_neg, s120, s150]
      ring

/-! ### Examples -/

/-- ties every 15 degrees of longitude, the rows turned by 3 degrees, at high latitudes -/
example : ∃ lo la, tiePointsGeoInterpolation (numArray ("y", "x") (1 * 2) 8 fun i j => (-60 + 15 * j + 3 * i : ℝ))
      (numArray ("y", "x") (1 * 2) 8 fun i j => 80 + 4 * i - j) 2 8 (val 60) (val (8 / 10)) = .ok (lo, la) ∧
    ∃ A A' : ℝ, lo.at 3 5 = val A ∧ lo.at 3 40 = val A' ∧ A < A' := by
  obtain ⟨lo, la, h1, h2⟩ := C103_vii 1 2 8 8 (by omega) (by omega) (by omega) (by omega) ("y", "x") (fun i j => -60 + 15 * j + 3 * i)
    (fun i j => 80 + 4 * i - j) 60 (8 / 10)
  obtain ⟨A, A', e1, e2, h⟩ := h2 0 (by omega) 0 (by omega) 3 (by omega) (by
    intro l hl
    have hl0 : (0 : ℝ) ≤ l := by positivity
    have hl1 : (l : ℝ) ≤ 6 := by exact_mod_cast (by omega : l ≤ 6)
    constructor
    · intro a ha b hb
      interval_cases a <;> interval_cases b <;> norm_num <;> rw [abs_lt, abs_lt] <;> refine ⟨⟨?_, ?_⟩, ?_, ?_⟩ <;> linarith
    · intro a ha b hb
      interval_cases a <;> interval_cases b <;> push_cast <;> constructor <;> linarith) 5 40 (by omega) (by omega)
  exact ⟨lo, la, h1, A, A', by simpa using e1, by simpa using e2, h⟩

/-- the hypothesis on the latitudes: rows at 0 and 10 degrees -/
example : CellNorth (8 / 10) (fun i _ => 10 * (i : ℝ)) 0 3 := by
  constructor
  · intro a ha b hb
    have : ∀ x : ℝ, 0 ≤ x → x ≤ 10 → |x| ≤ 90 ∧ |sin (rad x)| < 8 / 10 := by
      intro x h0 h1
      have hp := pi_lt_d2
      have r0 : 0 ≤ rad x := by unfold rad; positivity
      have r1 : rad x ≤ 10 * (3.15 / 180) := mul_le_mul h1 (by linarith) (by positivity) (by norm_num)
      have : |sin (rad x)| ≤ |rad x| := abs_sin_le_abs
      rw [abs_of_nonneg r0] at this
      exact ⟨by rw [abs_of_nonneg h0]; linarith, by norm_num at r1; linarith⟩
    refine this _ (by positivity) ?_
    have : (a : ℝ) ≤ 1 := by exact_mod_cast ha
    push_cast
    linarith
  · intro b hb
    norm_num

end Verif.Props
