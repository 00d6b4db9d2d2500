import Verif.Spec.Motion
import Verif.Props.GeoModes
import Verif.Props.ViiLabels

/-!
# C96: turning or mirroring the Earth turns or mirrors the interpolated positions
-/

set_option linter.unusedSectionVars false

namespace Verif.Props
open Verif Verif.Modis Verif.Spec.Modis Verif.Interpolator Verif.Presets Verif.Grid Verif.Vii Verif.Geo Verif.Spec FP Real

/-! ### the conversions -/

theorem cos_rad_add_turns (a : ℝ) (k : ℤ) : cos (rad (a + 360 * k)) = cos (rad a) := by
  rw [show rad (a + 360 * k) = rad a + k * (2 * π) by unfold rad; ring]
  exact cos_add_int_mul_two_pi _ _

theorem sin_rad_add_turns (a : ℝ) (k : ℤ) : sin (rad (a + 360 * k)) = sin (rad a) := by
  rw [show rad (a + 360 * k) = rad a + k * (2 * π) by unfold rad; ring]
  exact sin_add_int_mul_two_pi _ _

/-- two longitudes of the same direction -/
theorem same_direction {r a b : ℝ} (hr : r ≠ 0) (h1 : r * cos (rad a) = r * cos (rad b)) (h2 : r * sin (rad a) = r * sin (rad b)) :
    ∃ k : ℤ, a = b + 360 * k := by
  have c := mul_left_cancel₀ hr h1
  have s := mul_left_cancel₀ hr h2
  have h : cos (rad a - rad b) = 1 := by
    rw [cos_sub, c, s]
    nlinarith [cos_sq_add_sin_sq (rad b)]
  obtain ⟨k, hk⟩ := (cos_eq_one_iff _).1 h
  refine ⟨k, ?_⟩
  have hpi := pi_ne_zero
  have : rad a - rad b = (a - b) * (π / 180) := by unfold rad; ring
  rw [this] at hk
  field_simp at hk
  linarith

/-- ties move with the points of the sphere -/
theorem motion_tie (m : Motion) (R lon lat lon' lat' : ℝ) (h : m.Tie lon lat lon' lat') :
    spherePoint R lon' lat' = m.point (spherePoint R lon lat) := by
  cases m with
  | turn d =>
    obtain ⟨rfl, k, rfl⟩ := h
    simp only [spherePoint, Motion.point, cos_rad_add_turns, sin_rad_add_turns]
    rw [show rad (lon + d) = rad lon + rad d by unfold rad; ring, cos_add, sin_add]
    refine Prod.ext ?_ (Prod.ext ?_ rfl) <;> simp only <;> ring
  | eastWest =>
    obtain ⟨rfl, k, rfl⟩ := h
    simp only [spherePoint, Motion.point, cos_rad_add_turns, sin_rad_add_turns]
    rw [show rad (-lon) = -rad lon by unfold rad; ring, cos_neg, sin_neg]
    refine Prod.ext rfl (Prod.ext ?_ rfl)
    simp only; ring
  | northSouth =>
    obtain ⟨rfl, k, rfl⟩ := h
    simp only [spherePoint, Motion.point, cos_rad_add_turns, sin_rad_add_turns]
    rw [show rad (-lat) = -rad lat by unfold rad; ring, cos_neg, sin_neg]
    refine Prod.ext rfl (Prod.ext rfl ?_)
    simp only; ring

theorem rho_motion (m : Motion) (x y z : ℝ) : rho (m.point (x, y, z)).1 (m.point (x, y, z)).2.1 = rho x y := by
  unfold rho
  congr 1
  cases m with
  | turn d => simp only [Motion.point]; nlinarith [cos_sq_add_sin_sq (rad d)]
  | eastWest => simp [Motion.point]
  | northSouth => rfl

theorem axis_motion (m : Motion) (p : ℝ × ℝ × ℝ) : axisDistSq (m.point p) = axisDistSq p := by
  obtain ⟨x, y, z⟩ := p
  have := rho_motion m x y z
  have h1 := rho_sq x y
  have h2 := rho_sq (m.point (x, y, z)).1 (m.point (x, y, z)).2.1
  simp only [axisDistSq]
  rw [← h1, ← h2, this]

theorem latFP_turn (R t : ℝ) (low : Bool) (x y x' y' z : ℝ) (h : rho x' y' = rho x y) :
    latFP R t low x' y' z = latFP R t low x y z := by
  unfold latFP latXY
  rw [h]

theorem sgn_neg_eq (z : ℝ) : sgn (-z) = -sgn z := by
  rcases lt_trichotomy z 0 with h | h | h
  · rw [sgn_neg h, sgn_pos (by linarith)]; norm_num
  · subst h; simp [sgn]
  · rw [sgn_pos h, sgn_neg (by linarith)]

theorem latFP_mirror (R t : ℝ) (low : Bool) (x y z : ℝ) : latFP R t low x y (-z) = -latFP R t low x y z := by
  unfold latFP
  have hz : latZ R (-z) = -latZ R z := by
    unfold latZ
    rw [neg_div, arccos_neg]
    unfold deg
    have := pi_ne_zero
    field_simp
    ring
  have hxy : latXY R x y (-z) = -latXY R x y z := by
    unfold latXY
    rw [sgn_neg_eq]
    ring
  rw [neg_div, abs_neg, abs_neg, hz, hxy]
  split_ifs <;> simp

theorem lonFP_mirror (x y : ℝ) : lonFP x (-y) = -lonFP x y := by
  unfold lonFP lonR
  have : rho x (-y) = rho x y := by unfold rho; ring_nf
  rw [this, sgn_neg_eq]
  simp only [even_two, Even.neg_pow]
  split_ifs
  · rfl
  · simp

theorem lonFP_anti (x y : ℝ) (h : y = 0 ∧ x < 0) : lonFP x y = val 0 := by
  obtain ⟨rfl, hx⟩ := h
  unfold lonFP lonR
  rw [if_neg (by nlinarith)]
  simp [sgn]

theorem anti_dir (p : ℝ × ℝ × ℝ) (h : onAntimeridian p) :
    p.1 = √(axisDistSq p) * cos (rad 180) ∧ p.2.1 = √(axisDistSq p) * sin (rad 180) := by
  obtain ⟨x, y, z⟩ := p
  obtain ⟨h1, h2⟩ := h
  simp only at h1 h2
  subst h1
  have e : rad 180 = π := by unfold rad; field_simp
  simp only [axisDistSq, e, cos_pi, sin_pi]
  rw [show x ^ 2 + 0 ^ 2 = (-x) ^ 2 by ring, sqrt_sq (by linarith)]
  exact ⟨by ring, by ring⟩

/-- a direction after a turn -/
theorem turn_dir (d a : ℝ) (p : ℝ × ℝ × ℝ) (h1 : p.1 = √(axisDistSq p) * cos (rad a)) (h2 : p.2.1 = √(axisDistSq p) * sin (rad a)) :
    ((Motion.turn d).point p).1 = √(axisDistSq p) * cos (rad (a + d)) ∧
      ((Motion.turn d).point p).2.1 = √(axisDistSq p) * sin (rad (a + d)) := by
  rw [show rad (a + d) = rad a + rad d by unfold rad; ring, cos_add, sin_add]
  obtain ⟨x, y, z⟩ := p
  simp only [Motion.point] at h1 h2 ⊢
  generalize √(axisDistSq (x, y, z)) = s at h1 h2 ⊢
  subst h1 h2
  constructor <;> ring

/-- the longitudes reported before and after a turn -/
theorem lon_turn (R t d : ℝ) (low : Bool) (p : ℝ × ℝ × ℝ) (hR : 0 < R) :
    TurnedLon d (xyz2lonlat (val R) (val t) low (pt p)).1 (xyz2lonlat (val R) (val t) low (pt ((Motion.turn d).point p))).1 ∧
    (axisDistSq p ≠ 0 → ¬ onAntimeridian p → ¬ onAntimeridian ((Motion.turn d).point p) →
      ∃ a a', ∃ k : ℤ, (xyz2lonlat (val R) (val t) low (pt p)).1 = val a ∧
        (xyz2lonlat (val R) (val t) low (pt ((Motion.turn d).point p))).1 = val a' ∧ a' = a + d + 360 * k) := by
  have hax := axis_motion (.turn d) p
  by_cases h0 : axisDistSq p = 0
  · refine ⟨?_, fun h => absurd h0 h⟩
    have b : ∀ q : ℝ × ℝ × ℝ, axisDistSq q = 0 → (xyz2lonlat (val R) (val t) low (pt q)).1 = bad := by
      rintro ⟨x, y, z⟩ hq
      simp only [pt, xyz2lonlat_val _ _ _ _ _ _ hR]
      unfold lonFP
      exact if_pos hq
    rw [b p h0, b _ (hax.trans h0)]
    trivial
  have hs : √(axisDistSq p) ≠ 0 := by
    have : 0 ≤ axisDistSq p := by unfold axisDistSq; positivity
    rw [Ne, sqrt_eq_zero this]
    exact h0
  have anti : ∀ q : ℝ × ℝ × ℝ, onAntimeridian q → (xyz2lonlat (val R) (val t) low (pt q)).1 = val 0 := by
    rintro ⟨x, y, z⟩ hq
    simp only [pt, xyz2lonlat_val _ _ _ _ _ _ hR]
    exact lonFP_anti x y hq
  have off := fun q (h1 : axisDistSq q ≠ 0) (h2 : ¬ onAntimeridian q) => C91_lon R t low q hR h1 h2
  by_cases hp : onAntimeridian p
  · refine ⟨?_, fun _ h => absurd hp h⟩
    obtain ⟨e1, e2⟩ := anti_dir p hp
    obtain ⟨t1, t2⟩ := turn_dir d 180 p e1 e2
    rw [anti p hp]
    by_cases hq : onAntimeridian ((Motion.turn d).point p)
    · obtain ⟨f1, f2⟩ := anti_dir _ hq
      rw [hax] at f1 f2
      obtain ⟨k, hk⟩ := same_direction hs (f1.symm.trans t1) (f2.symm.trans t2)
      rw [anti _ hq]
      exact Or.inl ⟨k, by linarith⟩
    · obtain ⟨a, ⟨_, _, f1, f2⟩, g, _⟩ := off _ (by rw [hax]; exact h0) hq
      rw [hax] at f1 f2
      obtain ⟨k, hk⟩ := same_direction hs (f1.symm.trans t1) (f2.symm.trans t2)
      rw [g]
      exact Or.inr (Or.inl ⟨rfl, k, hk⟩)
  · obtain ⟨a, ⟨_, _, e1, e2⟩, g, _⟩ := off p h0 hp
    obtain ⟨t1, t2⟩ := turn_dir d a p e1 e2
    rw [g]
    by_cases hq : onAntimeridian ((Motion.turn d).point p)
    · refine ⟨?_, fun _ _ h => absurd hq h⟩
      obtain ⟨f1, f2⟩ := anti_dir _ hq
      rw [hax] at f1 f2
      obtain ⟨k, hk⟩ := same_direction hs (f1.symm.trans t1) (f2.symm.trans t2)
      rw [anti _ hq]
      exact Or.inr (Or.inr ⟨rfl, k, hk⟩)
    · obtain ⟨a', ⟨_, _, f1, f2⟩, g', _⟩ := off _ (by rw [hax]; exact h0) hq
      rw [hax] at f1 f2
      obtain ⟨k, hk⟩ := same_direction hs (f1.symm.trans t1) (f2.symm.trans t2)
      rw [g']
      exact ⟨Or.inl ⟨k, hk⟩, fun _ _ _ => ⟨a, a', k, rfl, rfl, hk⟩⟩

/-- **C96 (conversion)**: the position reported for a moved point is the moved position, for every point (on the sphere or not). -/
theorem C96_convert (m : Motion) (R t : ℝ) (low : Bool) (p : ℝ × ℝ × ℝ) (hR : 0 < R) :
    m.Reported (xyz2lonlat (val R) (val t) low (pt p)) (xyz2lonlat (val R) (val t) low (pt (m.point p))) := by
  cases m with
  | turn d =>
    refine ⟨(lon_turn R t d low p hR).1, ?_⟩
    have := rho_motion (.turn d) p.1 p.2.1 p.2.2
    obtain ⟨x, y, z⟩ := p
    simp only [pt, xyz2lonlat_val _ _ _ _ _ _ hR]
    exact latFP_turn R t low _ _ _ _ _ this
  | eastWest =>
    obtain ⟨x, y, z⟩ := p
    have := rho_motion .eastWest x y z
    simp only [Motion.Reported, Motion.point, pt, xyz2lonlat_val _ _ _ _ _ _ hR, lonFP_mirror]
    exact Prod.ext rfl (latFP_turn R t low _ _ _ _ _ this)
  | northSouth =>
    obtain ⟨x, y, z⟩ := p
    simp only [Motion.Reported, Motion.point, pt, xyz2lonlat_val _ _ _ _ _ _ hR, latFP_mirror]

example : (Motion.turn 90).Reported (xyz2lonlat (val 3) (val (8 / 10)) true (pt (2, -2, 1)))
    (xyz2lonlat (val 3) (val (8 / 10)) true (pt ((Motion.turn 90).point (2, -2, 1)))) :=
  C96_convert _ _ _ _ _ (by norm_num)

/-! ### the interpolators -/

/-- a combination of four values -/
def comb4 (t s a b c d : ℝ) : ℝ := (1 - t) * ((1 - s) * a + s * b) + t * ((1 - s) * c + s * d)

/-- combinations of points move with the points -/
theorem motion_comb (m : Motion) (t s : ℝ) (a b c d : ℝ × ℝ × ℝ) :
    (comb4 t s (m.point a).1 (m.point b).1 (m.point c).1 (m.point d).1,
      comb4 t s (m.point a).2.1 (m.point b).2.1 (m.point c).2.1 (m.point d).2.1,
      comb4 t s (m.point a).2.2 (m.point b).2.2 (m.point c).2.2 (m.point d).2.2)
      = m.point (comb4 t s a.1 b.1 c.1 d.1, comb4 t s a.2.1 b.2.1 c.2.1 d.2.1, comb4 t s a.2.2 b.2.2 c.2.2 d.2.2) := by
  obtain ⟨a1, a2, a3⟩ := a
  obtain ⟨b1, b2, b3⟩ := b
  obtain ⟨c1, c2, c3⟩ := c
  obtain ⟨d1, d2, d3⟩ := d
  cases m <;> simp only [Motion.point, comb4] <;> refine Prod.ext ?_ (Prod.ext ?_ ?_) <;> simp only <;> ring

theorem motion_cell (m : Motion) (R : ℝ) (lon lat lon' lat' : Nat → Nat → ℝ) (h : Motion.Ties m lon lat lon' lat') (i j : Nat) (t s : ℝ) :
    cellMean R lon' lat' i j t s = m.point (cellMean R lon lat i j t s) := by
  have e := fun a b => motion_tie m R _ _ _ _ (h a b)
  have := motion_comb m t s (spherePoint R (lon i j) (lat i j)) (spherePoint R (lon i (j + 1)) (lat i (j + 1)))
    (spherePoint R (lon (i + 1) j) (lat (i + 1) j)) (spherePoint R (lon (i + 1) (j + 1)) (lat (i + 1) (j + 1)))
  simp only [cellMean, bilinear, e]
  exact this

/-- **C96 (grids)**: a geographic grid interpolator given moved ties reports the moved positions, at every fine point of a cell. -/
theorem C96_grid (m : Motion) (tok : TokIn Unit (FP ℝ) → Nat) (be : Bool) (fill : Option (FP ℝ)) (Y X : List ℝ)
    (hY : Y.Pairwise (· < ·)) (hX : X.Pairwise (· < ·)) (h2y : 2 ≤ Y.length) (h2x : 2 ≤ X.length)
    (lons lats lons' lats' : List (List ℝ)) (h1 : Dims Y.length X.length lons) (h2 : Dims Y.length X.length lats)
    (h1' : Dims Y.length X.length lons') (h2' : Dims Y.length X.length lats') (fy fx : List ℝ)
    (hin : be = true → (∀ y ∈ fy, Inside Y y) ∧ ∀ x ∈ fx, Inside X x)
    (hm : ∀ i < Y.length, ∀ j < X.length, m.Tie (entries lons i j) (entries lats i j) (entries lons' i j) (entries lats' i j)) :
    ∃ is is' lo la lo' la', mkGeo (singleGrid (fun _ => linearKernel) be fill (Y.map val) (X.map val))
        [.array (vals lons), .array (vals lats)] = .ok is ∧
      mkGeo (singleGrid (fun _ => linearKernel) be fill (Y.map val) (X.map val))
        [.array (vals lons'), .array (vals lats')] = .ok is' ∧
      interpolateGeo tok is [fy.map val, fx.map val] none () = .ok (lo, la) ∧
      interpolateGeo tok is' [fy.map val, fx.map val] none () = .ok (lo', la') ∧
      ∀ a b i j, ∀ (ha : a < fy.length) (hb : b < fx.length) (hi : i + 1 < Y.length) (hj : j + 1 < X.length),
        Y[i] ≤ fy[a] → fy[a] ≤ Y[i + 1] → X[j] ≤ fx[b] → fx[b] ≤ X[j + 1] →
        m.Reported (el (row lo a) b, el (row la a) b) (el (row lo' a) b, el (row la' a) b) := by
  obtain ⟨is, lo, la, e1, e2, _, _, e5⟩ := grid_geo_point tok be fill Y X hY hX h2y h2x lons lats h1 h2 fy fx hin
  obtain ⟨is', lo', la', f1, f2, _, _, f5⟩ := grid_geo_point tok be fill Y X hY hX h2y h2x lons' lats' h1' h2' fy fx hin
  refine ⟨is, is', lo, la, lo', la', e1, f1, e2, f2, ?_⟩
  intro a b i j ha hb hi hj y1 y2 x1 x2
  obtain ⟨k1, k2⟩ := e5 a b i j ha hb hi hj y1 y2 x1 x2
  obtain ⟨l1, l2⟩ := f5 a b i j ha hb hi hj y1 y2 x1 x2
  have hp : bilinPoint Y X lons' lats' i j fy[a] fx[b] = m.point (bilinPoint Y X lons lats i j fy[a] fx[b]) := by
    have e := fun c d hc hd => motion_tie m 6370997 _ _ _ _ (hm c hc d hd)
    simp only [entries] at e
    simp only [bilinPoint, bilin]
    rw [e i j (by omega) (by omega), e i (j + 1) (by omega) hj, e (i + 1) j hi (by omega), e (i + 1) (j + 1) hi hj]
    exact motion_comb m _ _ _ _ _ _
  rw [k1, k2, l1, l2, hp]
  exact C96_convert m 6370997 (8 / 10) true _ (by norm_num)

/-- **C96 (simple MODIS)**: the same for every pixel of the simple MODIS interpolation, borders included. -/
theorem C96_simple (m : Motion) (c : SConv) (n C : Nat) (hC : 2 ≤ C) (lon lat lon' lat' : Nat → Nat → ℝ)
    (hm : Motion.Ties m lon lat lon' lat') (junk junk' : Nat → Nat → Nat → Nat → FP ℝ) :
    ∃ out out', c.run Verif.ModisSimple.mcLinear ⟨n * 10, C, fun i j => val (lon i j)⟩ ⟨n * 10, C, fun i j => val (lat i j)⟩ junk = .ok out ∧
      c.run Verif.ModisSimple.mcLinear ⟨n * 10, C, fun i j => val (lon' i j)⟩ ⟨n * 10, C, fun i j => val (lat' i j)⟩ junk' = .ok out' ∧
      ∀ r < n * (10 * c.factor), ∀ i < C * c.factor,
        m.Reported (out.1.cell r i, out.2.cell r i) (out'.1.cell r i, out'.2.cell r i) := by
  obtain ⟨out, h1, h2⟩ := C36_bilinear c n C hC lon lat junk
  obtain ⟨out', h1', h2'⟩ := C36_bilinear c n C hC lon' lat' junk'
  refine ⟨out, out', h1, h1', ?_⟩
  intro r hr i hi
  have hf : 0 < 10 * c.factor := by cases c <;> simp [SConv.factor]
  have hs : r / (10 * c.factor) < n := by rw [Nat.div_lt_iff_lt_mul hf]; exact hr
  have hj := Nat.mod_lt r hf
  have hsplit : r / (10 * c.factor) * (10 * c.factor) + r % (10 * c.factor) = r := Nat.div_add_mod' _ _
  have g := h2 _ _ i hs hj hi
  have g' := h2' _ _ i hs hj hi
  rw [hsplit] at g g'
  rw [g, g']
  generalize ((((r % (10 * c.factor) : ℕ) : ℝ) + 1 / 2) / c.factor - 1 / 2) = y
  generalize ((i : ℝ) / c.factor) = x
  generalize r / (10 * c.factor) = s
  have hp : (bilinExt 10 C (fun a b => tieR lon' lat' 0 (s * 10 + a) b) y x, bilinExt 10 C (fun a b => tieR lon' lat' 1 (s * 10 + a) b) y x,
        bilinExt 10 C (fun a b => tieR lon' lat' 2 (s * 10 + a) b) y x)
      = m.point (bilinExt 10 C (fun a b => tieR lon lat 0 (s * 10 + a) b) y x,
        bilinExt 10 C (fun a b => tieR lon lat 1 (s * 10 + a) b) y x, bilinExt 10 C (fun a b => tieR lon lat 2 (s * 10 + a) b) y x) := by
    have e := fun a b => motion_tie m 6370997 _ _ _ _ (hm a b)
    have t : ∀ lon lat : Nat → Nat → ℝ, ∀ a b, tieR lon lat 0 a b = (spherePoint 6370997 (lon a b) (lat a b)).1 ∧
        tieR lon lat 1 a b = (spherePoint 6370997 (lon a b) (lat a b)).2.1 ∧
        tieR lon lat 2 a b = (spherePoint 6370997 (lon a b) (lat a b)).2.2 := by
      intro lon lat a b
      simp [tieR, spherePoint]
    simp only [fun lon lat a b => (t lon lat a b).1, fun lon lat a b => (t lon lat a b).2.1, fun lon lat a b => (t lon lat a b).2.2, e]
    exact motion_comb m _ _ _ _ _ _
  have b : ∀ lon lat : Nat → Nat → ℝ, bilinLonLat C s lon lat y x = xyz2lonlat (val 6370997) (val (4 / 5)) true
      (pt (bilinExt 10 C (fun a b => tieR lon lat 0 (s * 10 + a) b) y x, bilinExt 10 C (fun a b => tieR lon lat 1 (s * 10 + a) b) y x,
        bilinExt 10 C (fun a b => tieR lon lat 2 (s * 10 + a) b) y x)) := by
    intro lon lat
    rw [← (C06_copies_agree 6370997 (4 / 5) _ (by norm_num)).1 true]
    unfold bilinLonLat
    rw [earth_val, cyThr_eq, Modis.defaultThr_val]
    rfl
  rw [b, b, hp]
  exact C96_convert m 6370997 (4 / 5) true _ (by norm_num)

/-- nothing is known of a position with a missing coordinate, before and after -/
theorem reported_bad (m : Motion) : m.Reported (cyXyz2lonlat (earthRadius : FP ℝ) cyThr true (bad, bad, bad))
    (cyXyz2lonlat (earthRadius : FP ℝ) cyThr true (bad, bad, bad)) := by
  have h : cyXyz2lonlat (earthRadius : FP ℝ) cyThr true (bad, bad, bad) = (bad, bad) := by
    simp [cyXyz2lonlat]
  rw [h]
  cases m <;> simp [Motion.Reported, TurnedLon]

/-- **C96 (zenith-angle MODIS)**: the same for every pixel, whatever the zenith angles. -/
theorem C96_modis (m : Motion) (c : Conv) (n W : Nat) (hW : c.WidthOk W) (lon lat lon' lat' : Nat → Nat → ℝ)
    (hm : Motion.Ties m lon lat lon' lat') (satz : Nat → Nat → FP ℝ) (junk junk' : Nat → Nat → Nat → Nat → FP ℝ) :
    ∃ out out', c.run ⟨n * c.scanRows, W, fun i j => val (lon i j)⟩ ⟨n * c.scanRows, W, fun i j => val (lat i j)⟩
        ⟨n * c.scanRows, W, satz⟩ junk = .ok out ∧
      c.run ⟨n * c.scanRows, W, fun i j => val (lon' i j)⟩ ⟨n * c.scanRows, W, fun i j => val (lat' i j)⟩
        ⟨n * c.scanRows, W, satz⟩ junk' = .ok out' ∧
      ∀ r < n * c.scanRows * c.factor, ∀ k < c.outCols,
        m.Reported (out.1.cell r k, out.2.cell r k) (out'.1.cell r k, out'.2.cell r k) := by
  obtain ⟨out, h1, h2, h3⟩ := run_pixel c (n := n) (lon := ⟨n * c.scanRows, W, fun i j => val (lon i j)⟩)
    (lat := ⟨n * c.scanRows, W, fun i j => val (lat i j)⟩) (satz := ⟨n * c.scanRows, W, satz⟩) ⟨hW, rfl, rfl, rfl, rfl, rfl⟩ junk
  obtain ⟨out', h1', h2', h3'⟩ := run_pixel c (n := n) (lon := ⟨n * c.scanRows, W, fun i j => val (lon' i j)⟩)
    (lat := ⟨n * c.scanRows, W, fun i j => val (lat' i j)⟩) (satz := ⟨n * c.scanRows, W, satz⟩) ⟨hW, rfl, rfl, rfl, rfl, rfl⟩ junk'
  refine ⟨out, out', h1, h1', ?_⟩
  intro r hr k hk
  rw [h2.cell r k hr hk trivial, h3.cell r k hr hk trivial, h2'.cell r k hr hk trivial, h3'.cell r k hr hk trivial]
  show m.Reported (Spec.Modis.pixel (c.cfg W) _ _ _ r k) (Spec.Modis.pixel (c.cfg W) _ _ _ r k)
  unfold Spec.Modis.pixel scanPixel fineXyz
  simp only [ties_val]
  generalize r / ((c.cfg W).len * (c.cfg W).f) * (c.cfg W).len = i0
  generalize r % ((c.cfg W).len * (c.cfg W).f) = r0
  generalize i0 + cellRow (c.cfg W) r0 = i
  generalize cellCol (c.cfg W) k = j
  generalize trackScan (c.cfg W) satz i0 r0 k = ts
  obtain ⟨t, s⟩ := ts
  have hbad : ∀ a b c d : ℝ, t = bad ∨ s = bad → fineComponent t s (val a) (val b) (val c) (val d) = bad := by
    rintro a b c d (rfl | rfl) <;> simp [fineComponent]
  cases t with
  | bad =>
    simp only [fun a b c d => hbad a b c d (Or.inl rfl)]
    exact reported_bad m
  | val t =>
    cases s with
    | bad =>
      simp only [fun a b c d => hbad a b c d (Or.inr rfl)]
      exact reported_bad m
    | val s =>
      have e := fun a b => motion_tie m 6370997 _ _ _ _ (hm a b)
      have ht : ∀ lon lat : Nat → Nat → ℝ, ∀ a b, tieR lon lat 0 a b = (spherePoint 6370997 (lon a b) (lat a b)).1 ∧
          tieR lon lat 1 a b = (spherePoint 6370997 (lon a b) (lat a b)).2.1 ∧
          tieR lon lat 2 a b = (spherePoint 6370997 (lon a b) (lat a b)).2.2 := by
        intro lon lat a b
        simp [tieR, spherePoint]
      have hc : ∀ a b c d : ℝ, fineComponent (val t) (val s) (val a) (val b) (val c) (val d) = val (comb4 t s a b d c) := by
        intro a b c d
        simp only [fineComponent, comb4, FP.one_eq, FP.val_sub, FP.val_mul, FP.val_add]
      simp only [hc, earth_val, cyThr_eq, Modis.defaultThr_val]
      have q := fun p => (C06_copies_agree 6370997 (4 / 5) p (by norm_num)).1 true
      simp only [pt] at q
      rw [q (_, _, _), q (_, _, _)]
      have hp := motion_comb m t s (spherePoint 6370997 (lon i j) (lat i j)) (spherePoint 6370997 (lon i (j + 1)) (lat i (j + 1)))
        (spherePoint 6370997 (lon (i + 1) j) (lat (i + 1) j)) (spherePoint 6370997 (lon (i + 1) (j + 1)) (lat (i + 1) (j + 1)))
      have g := C96_convert m 6370997 (4 / 5) true (comb4 t s (tieR lon lat 0 i j) (tieR lon lat 0 i (j + 1)) (tieR lon lat 0 (i + 1) j) (tieR lon lat 0 (i + 1) (j + 1)),
        comb4 t s (tieR lon lat 1 i j) (tieR lon lat 1 i (j + 1)) (tieR lon lat 1 (i + 1) j) (tieR lon lat 1 (i + 1) (j + 1)),
        comb4 t s (tieR lon lat 2 i j) (tieR lon lat 2 i (j + 1)) (tieR lon lat 2 (i + 1) j) (tieR lon lat 2 (i + 1) (j + 1))) (by norm_num)
      simp only [fun lon lat a b => (ht lon lat a b).1, fun lon lat a b => (ht lon lat a b).2.1, fun lon lat a b => (ht lon lat a b).2.2, e] at g ⊢
      rw [← hp] at g
      exact g

theorem plain_tie {m : Motion} {lon lat lon' lat' : ℝ} (h : m.Plain lon lat lon' lat') : m.Tie lon lat lon' lat' := by
  cases m <;> exact ⟨h.1, 0, by rw [h.2]; simp⟩

theorem plain_far {m : Motion} {lon lat lon' lat' : Nat → Nat → ℝ} (h : ∀ i j, m.Plain (lon i j) (lat i j) (lon' i j) (lat' i j))
    (n c : Nat) (thr : ℝ) : FarApart n c lon' lat' thr ↔ FarApart n c lon lat thr := by
  unfold FarApart
  cases m with
  | turn d => simp [fun i j => (h i j).1, fun i j => (h i j).2]
  | eastWest =>
    simp only [fun i j => (h i j).1, fun i j => (h i j).2]
    refine or_congr Iff.rfl ⟨?_, ?_⟩
    · rintro ⟨i, hi, j, hj, i', hi', j', hj', g⟩
      exact ⟨i', hi', j', hj', i, hi, j, hj, by linarith⟩
    · rintro ⟨i, hi, j, hj, i', hi', j', hj', g⟩
      exact ⟨i', hi', j', hj', i, hi, j, hj, by linarith⟩
  | northSouth => simp [fun i j => (h i j).1, fun i j => (h i j).2]

/-- **C96 (VII)**: the same for every pixel of the VII interpolation, when both arrays of ties are interpolated on the sphere, or when
the longitudes are turned without bringing them back into an interval of 360 degrees. -/
theorem C96_vii (m : Motion) (N T F c : Nat) (hN : 1 ≤ N) (hT : 2 ≤ T) (hF : 1 ≤ F) (hc : 2 ≤ c) (dims : String × String)
    (lon lat lon' lat' : Nat → Nat → ℝ) (thr zthr : ℝ)
    (hm : (Motion.Ties m lon lat lon' lat' ∧ FarApart (N * T) c lon lat thr ∧ FarApart (N * T) c lon' lat' thr) ∨
      ∀ i j, m.Plain (lon i j) (lat i j) (lon' i j) (lat' i j)) :
    ∃ lo la lo' la',
      tiePointsGeoInterpolation (numArray dims (N * T) c lon) (numArray dims (N * T) c lat) T F (val thr) (val zthr) = .ok (lo, la) ∧
      tiePointsGeoInterpolation (numArray dims (N * T) c lon') (numArray dims (N * T) c lat') T F (val thr) (val zthr) = .ok (lo', la') ∧
      ∀ j < N, ∀ k, k + 1 < T → ∀ u < F, ∀ l, l + 1 < c → ∀ w < F,
        m.Reported (lo.at (j * ((T - 1) * F) + (k * F + u)) (l * F + w), la.at (j * ((T - 1) * F) + (k * F + u)) (l * F + w))
          (lo'.at (j * ((T - 1) * F) + (k * F + u)) (l * F + w), la'.at (j * ((T - 1) * F) + (k * F + u)) (l * F + w)) := by
  have hties : Motion.Ties m lon lat lon' lat' := by
    rcases hm with hm | hm
    · exact hm.1
    · exact fun i j => plain_tie (hm i j)
  by_cases hf : FarApart (N * T) c lon lat thr
  · have hf' : FarApart (N * T) c lon' lat' thr := by
      rcases hm with hm | hm
      · exact hm.2.2
      · exact (plain_far hm _ _ _).2 hf
    obtain ⟨lo, la, h1, h2⟩ := C42_cartesian N T F c hN hT hF hc dims lon lat thr zthr hf
    obtain ⟨lo', la', h1', h2'⟩ := C42_cartesian N T F c hN hT hF hc dims lon' lat' thr zthr hf'
    refine ⟨lo, la, lo', la', h1, h1', ?_⟩
    intro j hj k hk u hu l hl w hw
    rw [h2 j hj k hk u hu l hl w hw, h2' j hj k hk u hu l hl w hw]
    have hR : 0 < viiRadius := by norm_num [viiRadius]
    have e : ∀ lon lat : Nat → Nat → ℝ, _ = _ := fun lon lat =>
      (C06_copies_agree viiRadius zthr (cellMean viiRadius lon lat (j * T + k) l ((u : ℝ) / F) ((w : ℝ) / F)) hR).2
    have h := C96_convert m viiRadius zthr true (cellMean viiRadius lon lat (j * T + k) l ((u : ℝ) / F) ((w : ℝ) / F)) hR
    rw [← motion_cell m viiRadius lon lat lon' lat' hties, ← e, ← e] at h
    exact h
  · have hp : ∀ i j, m.Plain (lon i j) (lat i j) (lon' i j) (lat' i j) := by
      rcases hm with hm | hm
      · exact absurd hm.2.1 hf
      · exact hm
    have hf' : ¬ FarApart (N * T) c lon' lat' thr := fun h => hf ((plain_far hp _ _ _).1 h)
    unfold FarApart at hf hf'
    push Not at hf hf'
    obtain ⟨lo, la, h1, h2⟩ := C42_direct N T F c hN hT hF hc dims lon lat thr zthr hf.1 hf.2
    obtain ⟨lo', la', h1', h2'⟩ := C42_direct N T F c hN hT hF hc dims lon' lat' thr zthr hf'.1 hf'.2
    refine ⟨lo, la, lo', la', h1, h1', ?_⟩
    intro j hj k hk u hu l hl w hw
    rw [(h2 j hj k hk u hu l hl w hw).1, (h2 j hj k hk u hu l hl w hw).2, (h2' j hj k hk u hu l hl w hw).1, (h2' j hj k hk u hu l hl w hw).2]
    generalize ((u : ℝ) / F) = t
    generalize ((w : ℝ) / F) = s
    cases m with
    | turn d =>
      refine ⟨Or.inl ⟨0, ?_⟩, ?_⟩
      · simp only [bilinear, fun i j => (hp i j).2]; push_cast; ring
      · simp only [bilinear, fun i j => (hp i j).1]
    | eastWest =>
      refine Prod.ext ?_ ?_
      · simp only [bilinear, fun i j => (hp i j).2, FP.val_neg]; congr 1; ring
      · simp only [bilinear, fun i j => (hp i j).1]
    | northSouth =>
      refine Prod.ext ?_ ?_
      · simp only [bilinear, fun i j => (hp i j).2]
      · simp only [bilinear, fun i j => (hp i j).1, FP.val_neg]; congr 1; ring

/-! ### where it fails -/

/-- **C96 (negation, 180th meridian)**: turned by half a turn, the point of longitude 0 keeps its longitude. -/
theorem C96_negation_meridian (R t : ℝ) (low : Bool) (hR : 0 < R) :
    (xyz2lonlat (val R) (val t) low (pt (R, 0, 0))).1 = val 0 ∧
    (xyz2lonlat (val R) (val t) low (pt (Motion.point (.turn 180) (R, 0, 0)))).1 = val 0 ∧
    ¬ ∃ k : ℤ, (0 : ℝ) = 0 + 180 + 360 * k := by
  have hpi : rad 180 = π := by unfold rad; ring
  refine ⟨?_, ?_, ?_⟩
  · simp only [pt, xyz2lonlat_val _ _ _ _ _ _ hR]
    unfold lonFP lonR
    rw [if_neg (by positivity)]
    simp [sgn]
  · simp only [Motion.point, hpi, cos_pi, sin_pi, pt, xyz2lonlat_val _ _ _ _ _ _ hR]
    exact lonFP_anti _ _ ⟨by ring, by linarith⟩
  · rintro ⟨k, hk⟩
    have : (360 * k : ℤ) = -180 := by exact_mod_cast (by linarith : (360 * k : ℝ) = -180)
    omega

/-- two columns of ties, 90 degrees apart -/
def quarter : Nat → Nat → ℝ := fun _ j => if j = 0 then 0 else 90
/-- the same after half a turn, in the interval from -180 to 180 -/
def quarterTurned : Nat → Nat → ℝ := fun _ j => if j = 0 then 180 else -90

theorem quarter_ties : Motion.Ties (.turn 180) quarter (fun _ _ => 60) quarterTurned (fun _ _ => 60) := by
  intro i j
  refine ⟨rfl, ?_⟩
  by_cases h : j = 0
  · exact ⟨0, by simp [quarter, quarterTurned, h]⟩
  · exact ⟨-1, by simp [quarter, quarterTurned, h]; norm_num⟩

/-- **C96 (negation, VII)**: a cell away from the poles and from the 180th meridian, turned by half a turn to longitudes between -180
and 180.  The latitude of the pixel between its two ties on the parallel of 60 degrees is 60 before and more than 60 after. -/
theorem C96_negation_vii : ∃ lo la lo' la', ∃ b : ℝ,
    tiePointsGeoInterpolation (numArray ("alt", "act") 2 2 quarter) (numArray ("alt", "act") 2 2 (fun _ _ => 60)) 2 2 (val 60) (val (4 / 5)) = .ok (lo, la) ∧
    tiePointsGeoInterpolation (numArray ("alt", "act") 2 2 quarterTurned) (numArray ("alt", "act") 2 2 (fun _ _ => 60)) 2 2 (val 60) (val (4 / 5)) = .ok (lo', la') ∧
    la.at 0 1 = val 60 ∧ la'.at 0 1 = val b ∧ 60 < b := by
  obtain ⟨lo, la, h1, h2⟩ := C42_direct 1 2 2 2 (by omega) (by omega) (by omega) (by omega) ("alt", "act") quarter (fun _ _ => 60) 60 (4 / 5)
    (by intros; norm_num) (by
      intro i _ j _ i' _ j' _
      unfold quarter
      split_ifs <;> norm_num)
  obtain ⟨lo', la', h1', h2'⟩ := C42_cartesian 1 2 2 2 (by omega) (by omega) (by omega) (by omega) ("alt", "act") quarterTurned (fun _ _ => 60) 60 (4 / 5)
    (Or.inr ⟨0, by omega, 0, by omega, 0, by omega, 1, by omega, by norm_num [quarterTurned]⟩)
  have hR : 0 < viiRadius := by norm_num [viiRadius]
  have g := (h2 0 (by omega) 0 (by omega) 0 (by omega) 0 (by omega) 1 (by omega)).2
  have g' := congrArg Prod.snd (h2' 0 (by omega) 0 (by omega) 0 (by omega) 0 (by omega) 1 (by omega))
  have r60 : rad 60 = π / 3 := by unfold rad; ring
  have r180 : rad 180 = π := by unfold rad; ring
  have r90 : rad (-90) = -(π / 2) := by unfold rad; ring
  refine ⟨lo, la, lo', la', latXY viiRadius (-viiRadius / 4) (-viiRadius / 4) (viiRadius * sin (π / 3)), h1, h1', ?_, ?_, ?_⟩
  · rw [show (0 * ((2 - 1) * 2) + (0 * 2 + 0)) = 0 by rfl] at g
    refine g.trans (congrArg val ?_)
    simp only [bilinear]
    ring
  · have hx : (bilinear (fun a b => (spherePoint viiRadius (quarterTurned a b) 60).1) (0 * 2 + 0) 0 ((0 : ℕ) / (2 : ℕ) : ℝ) ((1 : ℕ) / (2 : ℕ) : ℝ)) = -viiRadius / 4 := by
      simp [bilinear, spherePoint, quarterTurned, r60, r180, r90]
      ring
    have hy : (bilinear (fun a b => (spherePoint viiRadius (quarterTurned a b) 60).2.1) (0 * 2 + 0) 0 ((0 : ℕ) / (2 : ℕ) : ℝ) ((1 : ℕ) / (2 : ℕ) : ℝ)) = -viiRadius / 4 := by
      simp [bilinear, spherePoint, quarterTurned, r60, r180, r90]
      ring
    have hz : (bilinear (fun a b => (spherePoint viiRadius (quarterTurned a b) 60).2.2) (0 * 2 + 0) 0 ((0 : ℕ) / (2 : ℕ) : ℝ) ((1 : ℕ) / (2 : ℕ) : ℝ)) = viiRadius * sin (π / 3) := by
      simp only [bilinear, spherePoint, r60]
      push_cast
      ring
    rw [hx, hy, hz, viiXyz2lonlat_val _ _ _ _ _ hR] at g'
    refine g'.trans ?_
    simp only [latFP]
    have h3 : (4 : ℝ) / 5 ≤ √3 / 2 := by
      have : (8 : ℝ) / 5 ≤ √3 := Real.le_sqrt_of_sq_le (by norm_num)
      linarith
    rw [if_neg (by
      rintro ⟨_, h⟩
      rw [mul_div_cancel_left₀ _ hR.ne', sin_pi_div_three, abs_of_nonneg (by positivity)] at h
      linarith), if_pos]
    unfold rho
    rw [Real.sqrt_le_left hR.le]
    nlinarith
  · have hs : (0 : ℝ) < viiRadius * sin (π / 3) := mul_pos hR (by rw [sin_pi_div_three]; positivity)
    have hq : rho (-viiRadius / 4) (-viiRadius / 4) / viiRadius < 1 / 2 := by
      rw [div_lt_iff₀ hR]
      unfold rho
      rw [Real.sqrt_lt' (by linarith)]
      nlinarith
    have ha : arcsin (rho (-viiRadius / 4) (-viiRadius / 4) / viiRadius) < π / 6 := by
      rw [← arcsin_sin (x := π / 6) (by linarith [pi_pos]) (by linarith [pi_pos]), sin_pi_div_six]
      exact arcsin_lt_arcsin (by have := div_nonneg (rho_nonneg (-viiRadius / 4) (-viiRadius / 4)) hR.le; linarith) hq (by norm_num)
    have hd : deg (arcsin (rho (-viiRadius / 4) (-viiRadius / 4) / viiRadius)) < 30 := by
      unfold deg
      calc _ < π / 6 * (180 / π) := by gcongr
        _ = 30 := by field_simp; norm_num
    unfold latXY
    rw [show sgn (viiRadius * sin (π / 3)) = 1 by unfold sgn; rw [if_pos hs]]
    linarith

/-! ### the hypotheses can be met -/

/-- two scans across the 180th meridian, a third of a turn further, with longitudes brought back into the interval from -180 to 180 -/
example (junk junk' : Nat → Nat → Nat → Nat → FP ℝ) := C96_simple (.turn 120) .km1to250 2 2 (by omega)
  (fun _ j => if j = 0 then 179 else -179) (fun i _ => i) (fun _ j => if j = 0 then -61 else -59) (fun i _ => i)
  (by
    intro i j
    refine ⟨rfl, ?_⟩
    by_cases h : j = 0
    · exact ⟨-1, by simp [h]; norm_num⟩
    · exact ⟨0, by simp [h]; norm_num⟩) junk junk'

/-- the southern image of a swath, with a missing zenith angle -/
example (junk junk' : Nat → Nat → Nat → Nat → FP ℝ) := C96_modis .northSouth .km1to500 2 1354 rfl
  (fun _ j => j / 10) (fun i _ => i) (fun _ j => j / 10) (fun i _ => -i) (fun i j => ⟨rfl, 0, by simp⟩)
  (fun i j => if i = 3 ∧ j = 4 then bad else val (j / 30)) junk junk'

/-- a polar swath of VII, turned and brought back -/
example := C96_vii (.turn 180) 2 3 8 2 (by omega) (by omega) (by omega) (by omega) ("alt", "act") quarter (fun _ _ => 60) quarterTurned
  (fun _ _ => 60) 50 (4 / 5) (Or.inl ⟨quarter_ties, Or.inl ⟨0, by omega, 0, by omega, by norm_num⟩, Or.inl ⟨0, by omega, 0, by omega, by norm_num⟩⟩)

/-- and away from the poles, turned without being brought back -/
example := C96_vii (.turn 180) 2 3 8 2 (by omega) (by omega) (by omega) (by omega) ("alt", "act") quarter (fun _ _ => 20)
  (fun i j => quarter i j + 180) (fun _ _ => 20) 60 (4 / 5) (Or.inr (fun _ _ => ⟨rfl, rfl⟩))

/-- the mirror image of a grid with unequal steps -/
example (tok : TokIn Unit (FP ℝ) → Nat) := C96_grid .eastWest tok true none [0, 1, 3] [0, 2] (by norm_num) (by norm_num) (by simp) (by simp)
  [[10, 20], [11, 21], [12, 22]] [[5, 5], [6, 6], [7, 7]] [[-10, -20], [-11, -21], [-12, -22]] [[5, 5], [6, 6], [7, 7]]
  (by simp [Dims]) (by simp [Dims]) (by simp [Dims]) (by simp [Dims]) [1 / 2, 2] [1]
  (by intro _; simp [Inside]; norm_num)
  (by
    intro i hi j hj
    simp only [List.length_cons, List.length_nil] at hi hj
    refine ⟨?_, 0, ?_⟩ <;> interval_cases i <;> interval_cases j <;> simp [entries])

end Verif.Props
