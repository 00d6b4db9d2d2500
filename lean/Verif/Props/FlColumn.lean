import Verif.Proofs.FlColumn
import Verif.Props.FlPresets

/-!
# C77: accuracy of the MODIS presets along the tie columns, with rounding
-/

set_option linter.unusedSectionVars false

namespace Verif.Props
open Verif Verif.Interpolator Verif.Spec Verif.Presets Verif.Err Verif.Grid Verif.Geo

variable {r : Rounding} {ε ρ η δ : ℝ}

/-- one pixel of the conversion back, for any numbers -/
theorem toLonLat_pixel_gen {α : Type} [Trig α] {a b : Nat} {x y z : Mat α} (hx : Shape a b x) (hy : Shape a b y)
    (hz : Shape a b z) :
    ∃ lo la, toLonLat [x, y, z] = .ok (lo, la) ∧ ∀ i < a, ∀ u < b,
      (el (row lo i) u, el (row la i) u)
        = Geo.xyz2lonlat Geo.earthRadius Geo.defaultThr true (el (row x i) u, el (row y i) u, el (row z i) u) := by
  refine ⟨_, _, rfl, ?_⟩
  intro i hi u hu
  have wd : ∀ m : Mat α, Shape a b m → (m.getD i []).length = b := by
    intro m hm
    rw [getD_of_lt _ _ (by rw [hm.1]; exact hi)]; exact hm.2 _ (List.getElem_mem _)
  have key : ∀ g : α × α → α, el (row (List.zipWith (fun rx r => List.zipWith (fun a b => g (Geo.xyz2lonlat
      Geo.earthRadius Geo.defaultThr true (a, b))) rx r) x (List.zipWith List.zip y z)) i) u
      = g (Geo.xyz2lonlat Geo.earthRadius Geo.defaultThr true (el (row x i) u, el (row y i) u, el (row z i) u)) := by
    intro g
    unfold row el
    rw [getD_zipWith _ (by rw [hx.1]; exact hi) (by rw [List.length_zipWith, hy.1, hz.1]; omega) _ [] [],
      getD_zipWith _ (by rw [wd x hx]; exact hu) (by
        rw [getD_zipWith _ (by rw [hy.1]; exact hi) (by rw [hz.1]; exact hi) _ [] [], List.length_zip, wd y hy, wd z hz]
        omega) _ 0 (0, 0),
      getD_zipWith _ (by rw [hy.1]; exact hi) (by rw [hz.1]; exact hi) _ [] [], List.zip,
      getD_zipWith _ (by rw [wd y hy]; exact hu) (by rw [wd z hz]; exact hu) _ 0 0]
  rw [key (·.1), key (·.2)]

/-- straight lines through near points, at most half a unit beyond them -/
theorem line_near {p h a b a' b' e : ℝ} (h1 : p - 1 / 2 ≤ h) (h2 : h ≤ p + 3 / 2) (ea : |a - a'| ≤ e) (eb : |b - b'| ≤ e) :
    |lineThrough p a (p + 1) b h - lineThrough p a' (p + 1) b' h| ≤ 2 * e := by
  have id : lineThrough p a (p + 1) b h - lineThrough p a' (p + 1) b' h = (1 - (h - p)) * (a - a') + (h - p) * (b - b') := by
    unfold lineThrough
    rw [show p + 1 - p = 1 by ring]
    ring
  rw [id]
  have he : 0 ≤ e := (abs_nonneg _).trans ea
  refine (abs_add_le _ _).trans ?_
  rw [abs_mul, abs_mul]
  have hw : |1 - (h - p)| + |h - p| ≤ 2 := by
    rcases abs_cases (1 - (h - p)) with ⟨e1, _⟩ | ⟨e1, _⟩ <;> rcases abs_cases (h - p) with ⟨e2, _⟩ | ⟨e2, _⟩ <;> rw [e1, e2] <;> linarith
  have t1 := mul_le_mul_of_nonneg_left ea (abs_nonneg (1 - (h - p)))
  have t2 := mul_le_mul_of_nonneg_left eb (abs_nonneg (h - p))
  have t3 := mul_le_mul_of_nonneg_right hw he
  linarith

/-- coordinates of points on the sphere are at most its radius -/
theorem sphere_le {R lon lat : ℝ} (hR : 0 < R) (c : ℝ × ℝ × ℝ → ℝ) (hc : c = (·.1) ∨ c = (·.2.1) ∨ c = (·.2.2)) :
    |c (spherePoint R lon lat)| ≤ R := by
  have key : ∀ x y : ℝ, |x| ≤ 1 → |y| ≤ 1 → |R * x * y| ≤ R := by
    intro x y hx hy
    rw [abs_mul, abs_mul, abs_of_pos hR]
    have := mul_le_mul hx hy (abs_nonneg _) zero_le_one
    have := mul_le_mul_of_nonneg_left this hR.le
    linarith
  rcases hc with rfl | rfl | rfl
  · exact key _ _ (Real.abs_cos_le_one _) (Real.abs_cos_le_one _)
  · exact key _ _ (Real.abs_cos_le_one _) (Real.abs_sin_le_one _)
  · have := key (Real.sin (rad lat)) 1 (Real.abs_sin_le_one _) (by norm_num)
    rw [mul_one] at this
    exact this

/-- coordinates of neighbouring tie points differ by at most `d` -/
def Step (lons lats : List (List ℝ)) (d : ℝ) (i b : Nat) : Prop :=
  |(tieXyz lons lats (i + 1) b).1 - (tieXyz lons lats i b).1| ≤ d ∧
  |(tieXyz lons lats (i + 1) b).2.1 - (tieXyz lons lats i b).2.1| ≤ d ∧
  |(tieXyz lons lats (i + 1) b).2.2 - (tieXyz lons lats i b).2.2| ≤ d

/-- What is found at a pixel whose exact position is the point `P`. -/
def Accurate (ε κ : ℝ) (P : ℝ × ℝ × ℝ) (res : Fl r × Fl r) : Prop :=
  ∀ lon lat θ θ' : ℝ, |lon| ≤ 180 → |lat| < 90 → NearSphere 6370997 θ lon lat P → θ' = θ + κ / Real.cos (rad lat) → θ' ≤ 1 / 100 →
    (∃ L, res.1 = .val L ∧ (LonWithin (270 * √ε + 98 * θ') L lon ∨ (L = 0 ∧ 180 - 90 * θ' ≤ |lon|))) ∧
    ∃ B, res.2 = .val B ∧ |B - lat| ≤ 115 * θ' + 950 * ε

/-- from coordinates to longitude and latitude -/
theorem accurate_of_near (hp : 23 ≤ r.p) (h : LibRel r ε) (hε : ε ≤ 1 / 4096) {κ x y z : ℝ} {P : ℝ × ℝ × ℝ} (hκ : 0 ≤ κ)
    (hrep : RepPt r (x, y, z)) (nx : |x - P.1| ≤ 50 * (κ / 71) * 6370997) (ny : |y - P.2.1| ≤ 50 * (κ / 71) * 6370997)
    (nz : |z - P.2.2| ≤ 50 * (κ / 71) * 6370997) :
    Accurate ε κ P (xyz2lonlat earthRadius defaultThr true (flpt r (x, y, z))) := by
  intro lon lat θ θ' hlo hla hn eη' hη'
  have et : (defaultThr : Fl r) = .val (r.rnd (8 / 10)) := by
    show Fl.val (r.rnd (((8 : Nat) : ℝ) / (10 : ℝ) ^ 1)) = _
    norm_num
  obtain ⟨hη, hnear⟩ := near_add (p := (x, y, z)) (by norm_num) hla (by positivity) hn nx ny nz
  rw [show 71 * (κ / 71) = κ by ring, ← eη'] at hnear
  have hη0 : 0 ≤ θ' := nonneg_of_mul_nonneg_left ((abs_nonneg _).trans hnear.2) (by norm_num : (0 : ℝ) < 6370997)
  obtain ⟨⟨L, -, l1, l2, l3⟩, B, -, b1, b2⟩ := C64_back_error (r := r) (by omega) h hε (R := 6370997) (by norm_num)
    (thrOk_rnd (by omega)) (r.rep _) hlo hla hη' hrep hnear _ (List.mem_cons_self ..)
  rw [earth_fl hp, et]
  refine ⟨⟨L, l1, ?_⟩, B, b1, b2⟩
  by_cases ham : onAntimeridian (x, y, z)
  · exact Or.inr ⟨l3 ham, near_antimeridian (by norm_num) hlo hla hη0 (by linarith) hnear ham⟩
  · exact Or.inl (l2 ham)

/-- a whole preset along the tie columns -/
theorem geo_column_fl {G : ScanGrid ℝ} {s : Nat} (F : FlGrid G r s) (H : Unit1 G r s η) {S : SplLib (Fl r)}
    (A : SplAcc S ((G.rows s).map r.rnd) (G.cols.map r.rnd) ρ) (hρ0 : 0 ≤ ρ) (hρ : ρ ≤ 1 / 100) (hp : 23 ≤ r.p)
    (h : LibRel r ε) (hε : ε ≤ 1 / 4096) (lons lats : List (List ℝ)) (h1 : Shape (s * G.t) G.n lons)
    (h2 : Shape (s * G.t) G.n lats) (hlon : ∀ x ∈ lons, ∀ y ∈ x, |y| ≤ 180) (hlat : ∀ x ∈ lats, ∀ y ∈ x, |y| ≤ 90) :
    ∃ lo la, geoInterpXyz S ["y", "x"] (G.fl r s (geoTies (flvals lons) (flvals lats))) = .ok (lo, la) ∧
      Shape (s * G.k) G.N lo ∧ Shape (s * G.k) G.N la ∧
      ∀ c < s, ∀ a < G.k, ∀ b < G.n, ∀ u < G.N, G.g u = G.q b → ∀ j, j + 1 < G.t → (j = 0 ∨ G.p j ≤ G.h a) →
        (j + 2 = G.t ∨ G.h a ≤ G.p (j + 1)) → ∀ δ, 0 ≤ δ → Step lons lats (δ * 6370997) (c * G.t + j) b →
        Accurate ε (16 * ρ + 89 * ε + 9 * η * δ)
          (chord (G.p j) (tieXyz lons lats (c * G.t + j) b) (G.p (j + 1)) (tieXyz lons lats (c * G.t + (j + 1)) b) (G.h a))
          (el (row lo (c * G.k + a)) u, el (row la (c * G.k + a)) u) := by
  have ht := G.ht
  have hk := G.hk
  have f1 : (flvals lons : Mat (Fl r)).length = s * G.t := by rw [flvals, List.length_map]; exact h1.1
  have f2 : (flvals lats : Mat (Fl r)).length = s * G.t := by rw [flvals, List.length_map]; exact h2.1
  have f3 : ∀ {m : List (List ℝ)}, Shape (s * G.t) G.n m → ∀ x ∈ (flvals m : Mat (Fl r)), x.length = G.n := by
    intro m hm x hx
    obtain ⟨x', hx', rfl⟩ := List.mem_map.mp hx
    rw [List.length_map]; exact hm.2 x' hx'
  obtain ⟨lo0, la0, e0, s1, s2, s3, s4⟩ := geo_fl_shape F S f1 f2 (f3 h1) (f3 h2)
  rw [e0]
  refine ⟨lo0, la0, rfl, ⟨s1, s3⟩, ⟨s2, s4⟩, ?_⟩
  rw [geo_fl F S f1 f2 (f3 h1) (f3 h2)] at e0
  obtain ⟨Ds, hDs⟩ : ∃ Ds, Ds = geoTies (flvals lons : Mat (Fl r)) (flvals lats) := ⟨_, rfl⟩
  rw [← hDs] at e0
  conv at e0 => enter [1, 1, 2]; rw [hDs, geoTies_fl hp]
  simp only [List.map_cons, List.map_nil] at e0
  have hsh : ∀ V : List (List ℝ), Shape (s * G.k) G.N (rectVal S (flFilled G r s Ds) ((flScan G r s (flvals V)).map (flCol G r))) := by
    intro V
    refine ⟨by simp [rectVal, flFilled, ScanGrid.fl, fpos, poss], ?_⟩
    intro x hx
    obtain ⟨y, _, rfl⟩ := List.mem_map.mp hx
    simp [flFilled, ScanGrid.fl, fpos, poss]
  obtain ⟨lo, la, e1, pix⟩ := toLonLat_pixel_gen (hsh (flSphere r (·.1) lons lats)) (hsh (flSphere r (·.2.1) lons lats))
    (hsh (flSphere r (·.2.2) lons lats))
  rw [e1] at e0
  injection e0 with e0
  injection e0 with e2 e3
  subst e2 e3
  intro c hc a ha b hb u hu hgu j hj j1 j2 δ hδ0 hδ
  have hcs : (c + 1) * G.t ≤ s * G.t := Nat.mul_le_mul_right _ hc
  have hck : (c + 1) * G.k ≤ s * G.k := Nat.mul_le_mul_right _ hc
  rw [Nat.add_mul] at hcs hck
  rw [pix _ (by omega) u hu]
  have ε0 := h.pos
  have hη0 : 0 ≤ η := (abs_nonneg _).trans (H.eh 0 (by omega))
  have hη := H.hη
  -- one coordinate
  have near : ∀ f : ℝ × ℝ × ℝ → ℝ, (f = (·.1) ∨ f = (·.2.1) ∨ f = (·.2.2)) →
      |f (tieXyz lons lats (c * G.t + j + 1) b) - f (tieXyz lons lats (c * G.t + j) b)| ≤ δ * 6370997 →
      ∃ v, el (row (rectVal S (flFilled G r s Ds) ((flScan G r s (flvals (flSphere r f lons lats))).map (flCol G r)))
        (c * G.k + a)) u = .val v ∧ Rep r.p v ∧
      |v - lineThrough (G.p j) (f (tieXyz lons lats (c * G.t + j) b)) (G.p (j + 1)) (f (tieXyz lons lats (c * G.t + (j + 1)) b)) (G.h a)|
        ≤ 50 * ((16 * ρ + 89 * ε + 9 * η * δ) / 71) * 6370997 := by
    intro f hf hst
    have ferr : ∀ lon lat : ℝ, |lon| ≤ 180 → |lat| ≤ 90 →
        |f (fwd r 6370997 lon lat) - f (spherePoint 6370997 lon lat)| ≤ 19 * ε * 6370997 := by
      intro lon lat g1 g2
      obtain ⟨k1, k2, k3⟩ := fwd_err h hε (R := 6370997) (by norm_num) g1 g2
      rcases hf with rfl | rfl | rfl
      · exact k1
      · exact k2
      · exact k3
    have fbd : ∀ lon lat : ℝ, |lon| ≤ 180 → |lat| ≤ 90 → |f (fwd r 6370997 lon lat)| ≤ (1 + 19 * ε) * 6370997 := by
      intro lon lat g1 g2
      have k1 := ferr lon lat g1 g2
      have k2 := sphere_le (R := 6370997) (lon := lon) (lat := lat) (by norm_num) f hf
      have e : f (fwd r 6370997 lon lat) = (f (fwd r 6370997 lon lat) - f (spherePoint 6370997 lon lat))
        + f (spherePoint 6370997 lon lat) := by ring
      rw [e]
      refine (abs_add_le _ _).trans ?_
      linarith
    have frep : ∀ lon lat : ℝ, Rep r.p (f (fwd r 6370997 lon lat)) := by
      intro lon lat
      rcases hf with rfl | rfl | rfl <;> exact r.rep _
    have mem : ∀ x ∈ flSphere r f lons lats, ∀ y ∈ x, Rep r.p y ∧ |y| ≤ (1 + 19 * ε) * 6370997 := by
      intro x hx y hy
      obtain ⟨x1, hx1, x2, hx2, rfl⟩ := mem_zipWith hx
      obtain ⟨y1, hy1, y2, hy2, rfl⟩ := mem_zipWith hy
      exact ⟨frep _ _, fbd _ _ (hlon x1 hx1 y1 hy1) (hlat x2 hx2 y2 hy2)⟩
    have hD := flSphere_dims (r := r) f (n := s * G.t) (c := G.n) h1 h2
    obtain ⟨v, v1, v2, v3⟩ := column_fl F H A hρ hD (fun x hx y hy => (mem x hx y hy).1) (fun x hx y hy => (mem x hx y hy).2) Ds
      hc ha hb hu hgu hj j1 j2
    refine ⟨v, v1, v2, ?_⟩
    have val : ∀ i < s * G.t, |((flSphere r f lons lats).getD i []).getD b 0 - f (tieXyz lons lats i b)| ≤ 19 * ε * 6370997 := by
      intro i hi
      have e := flSphere_get (r := r) f (n := s * G.t) (c := G.n) h1 h2 hi hb
      unfold corner at e
      rw [e]
      have m1 := mem_row h1 hi
      have m2 := mem_row h2 hi
      exact ferr _ _ (hlon _ m1 _ (mem_el (by rw [h1.2 _ m1]; exact hb))) (hlat _ m2 _ (mem_el (by rw [h2.2 _ m2]; exact hb)))
    have va := val (c * G.t + j) (by omega)
    have vb := val (c * G.t + (j + 1)) (by omega)
    obtain ⟨d0, ed0⟩ : ∃ d, d = ((flSphere r f lons lats).getD (c * G.t + j) []).getD b 0 := ⟨_, rfl⟩
    obtain ⟨d1, ed1⟩ : ∃ d, d = ((flSphere r f lons lats).getD (c * G.t + (j + 1)) []).getD b 0 := ⟨_, rfl⟩
    obtain ⟨t0, et0⟩ : ∃ d, d = f (tieXyz lons lats (c * G.t + j) b) := ⟨_, rfl⟩
    obtain ⟨t1, et1⟩ : ∃ d, d = f (tieXyz lons lats (c * G.t + (j + 1)) b) := ⟨_, rfl⟩
    rw [Nat.add_assoc, ← et0, ← et1] at hst
    rw [← ed0, ← ed1] at v3
    rw [← ed0, ← et0] at va
    rw [← ed1, ← et1] at vb
    rw [← et0, ← et1]
    have hpj : G.p (j + 1) = G.p j + 1 := H.p1 j
    have hlo : G.p j - 1 / 2 ≤ G.h a := by
      rcases j1 with rfl | g
      · have := H.h0
        rcases Nat.eq_zero_or_pos a with rfl | g
        · linarith
        · linarith [G.hhm _ _ g]
      · linarith
    have hhi : G.h a ≤ G.p j + 3 / 2 := by
      rcases j2 with g | g
      · have := H.hl
        have e : G.p (G.t - 1) = G.p j + 1 := by rw [← hpj]; congr 1; omega
        rcases Nat.lt_or_ge a (G.k - 1) with g | g
        · linarith [G.hhm _ _ g]
        · rw [show a = G.k - 1 by omega]; linarith
      · linarith
    have ln := line_near hlo hhi va vb
    rw [← hpj] at ln
    refine (abs_sub_le _ _ _).trans ((add_le_add v3 ln).trans ?_)
    have hd : |d1 - d0| ≤ δ * 6370997 + 38 * ε * 6370997 := by
      have e : d1 - d0 = (d1 - t1) + (t1 - t0) - (d0 - t0) := by ring
      rw [e]
      refine (abs_sub _ _).trans ?_
      have := abs_add_le (d1 - t1) (t1 - t0)
      linarith
    have k1 : 6 * η * |d1 - d0| ≤ 6 * η * (δ * 6370997 + 38 * ε * 6370997) := mul_le_mul_of_nonneg_left hd (by positivity)
    have k2 : η * (ε * 6370997) ≤ 1 / 128 * (ε * 6370997) := mul_le_mul_of_nonneg_right hη (by positivity)
    have hu := h.u
    have k3 : (10 * ρ + 21 * r.u) * ((1 + 19 * ε) * 6370997) ≤ (10 * ρ + 21 * ε) * (1.005 * 6370997) := by
      refine mul_le_mul (by linarith) (by linarith) (by positivity) (by positivity)
    have k4 : 0 ≤ η * δ := mul_nonneg hη0 hδ0
    nlinarith
  obtain ⟨x, ex, rx, nx⟩ := near (·.1) (Or.inl rfl) hδ.1
  obtain ⟨y, ey, ry, ny⟩ := near (·.2.1) (Or.inr (Or.inl rfl)) hδ.2.1
  obtain ⟨z, ez, rz, nz⟩ := near (·.2.2) (Or.inr (Or.inr rfl)) hδ.2.2
  rw [ex, ey, ez]
  exact accurate_of_near hp h hε (by positivity) ⟨rx, ry, rz⟩ nx ny nz

/-! ### the three grids -/

theorem unit5 {s : Nat} (hp : 16 ≤ r.p) (hb : 512 * s ≤ 2 ^ r.p) : Unit1 grid5 r s (2 * s * r.u) where
  p1 i := by show (2 + ((i + 1 : Nat) : ℝ) * 5) / 5 = (2 + (i : ℝ) * 5) / 5 + 1; push_cast; ring
  q1 i := by show (2 + ((i + 1 : Nat) : ℝ) * 5) / 5 = (2 + (i : ℝ) * 5) / 5 + 1; push_cast; ring
  h0 := by show (2 + ((0 : Nat) : ℝ) * 5) / 5 - ((0 : Nat) : ℝ) / 5 ≤ 1 / 2; norm_num
  hl := by show ((9 : Nat) : ℝ) / 5 - (2 + ((1 : Nat) : ℝ) * 5) / 5 ≤ 1 / 2; norm_num
  g0 := by show (2 + ((0 : Nat) : ℝ) * 5) / 5 - ((0 : Nat) : ℝ) / 5 ≤ 1 / 2; norm_num
  gl := by show ((1353 : Nat) : ℝ) / 5 - (2 + ((270 : Nat) : ℝ) * 5) / 5 ≤ 3 / 4; norm_num
  ep i hi := by
    have hi' : i + 1 ≤ s * 2 := hi
    have h : (i : ℝ) + 1 ≤ s * 2 := by exact_mod_cast hi'
    show |r.rnd ((2 + (i : ℝ) * 5) / 5) - (2 + (i : ℝ) * 5) / 5| ≤ _
    refine (r.abs_rnd_sub_le_u _).trans ?_
    rw [abs_of_nonneg (by positivity), mul_comm]
    exact mul_le_mul_of_nonneg_right (by linarith) r.u_pos.le
  eh i hi := by
    have hi' : i < s * 10 := hi
    have h : (i : ℝ) ≤ s * 10 := by exact_mod_cast hi'.le
    show |r.rnd ((i : ℝ) / 5) - (i : ℝ) / 5| ≤ _
    refine (r.abs_rnd_sub_le_u _).trans ?_
    rw [abs_of_nonneg (by positivity), mul_comm]
    exact mul_le_mul_of_nonneg_right (by linarith) r.u_pos.le
  eq i hi := by
    obtain ⟨_, _, h3⟩ := big (s := s) hp hb
    have hi' : i + 1 ≤ 271 := hi
    have h : (i : ℝ) + 1 ≤ 271 := by exact_mod_cast hi'
    show |r.rnd ((2 + (i : ℝ) * 5) / 5) - (2 + (i : ℝ) * 5) / 5| ≤ _
    refine (r.abs_rnd_sub_le_u _).trans ?_
    rw [abs_of_nonneg (by positivity)]
    have := mul_le_mul h3 (show (2 + (i : ℝ) * 5) / 5 ≤ 271 by linarith) (by positivity) (by norm_num)
    linarith
  eg i hi := by
    obtain ⟨_, _, h3⟩ := big (s := s) hp hb
    have hi' : i ≤ 1354 := le_of_lt hi
    have h : (i : ℝ) ≤ 1354 := by exact_mod_cast hi'
    show |r.rnd ((i : ℝ) / 5) - (i : ℝ) / 5| ≤ _
    refine (r.abs_rnd_sub_le_u _).trans ?_
    rw [abs_of_nonneg (by positivity)]
    have := mul_le_mul h3 (show (i : ℝ) / 5 ≤ 271 by linarith) (by positivity) (by norm_num)
    linarith
  hη := by
    obtain ⟨_, h2, _⟩ := big (s := s) hp hb
    linarith
  hu := (big (s := s) hp hb).2.2

/-- quarters and eighths of integers are exact -/
theorem exact_scaled {m : ℤ} (h : |m| ≤ 2 ^ r.p) (n : ℕ) {x : ℝ} (hx : x = m / 2 ^ n) {e : ℝ} (he : 0 ≤ e) : |r.rnd x - x| ≤ e := by
  have := (rep_int r.hp1 h).scale (-(n : ℤ))
  rw [zpow_neg, zpow_natCast, ← div_eq_mul_inv, ← hx] at this
  rw [r.rnd_rep this, sub_self, abs_zero]
  exact he

theorem unit500 {s : Nat} (hp : 16 ≤ r.p) (hb : 512 * s ≤ 2 ^ r.p) : Unit1 grid500 r s 0 where
  p1 i := by show ((i + 1 : Nat) : ℝ) = i + 1; push_cast; ring
  q1 i := by show ((i + 1 : Nat) : ℝ) = i + 1; push_cast; ring
  h0 := by show ((0 : Nat) : ℝ) - (((0 : Nat) : ℝ) - 1 / 2) / 2 ≤ 1 / 2; norm_num
  hl := by show (((19 : Nat) : ℝ) - 1 / 2) / 2 - ((9 : Nat) : ℝ) ≤ 1 / 2; norm_num
  g0 := by show ((0 : Nat) : ℝ) - ((0 : Nat) : ℝ) / 2 ≤ 1 / 2; norm_num
  gl := by show ((2707 : Nat) : ℝ) / 2 - ((1353 : Nat) : ℝ) ≤ 3 / 4; norm_num
  ep i hi := by
    have hi' : i < s * 10 := hi
    have h2 : i ≤ 2 ^ r.p := by omega
    refine exact_scaled (m := i) (by rw [abs_of_nonneg (by positivity)]; exact_mod_cast h2) 0 ?_ le_rfl
    show (i : ℝ) = _
    norm_num
  eh i hi := by
    have hi' : i < s * 20 := hi
    have h2 : 2 * i + 1 ≤ 2 ^ r.p := by omega
    have h3 : 2 * (i : ℤ) + 1 ≤ 2 ^ r.p := by exact_mod_cast h2
    refine exact_scaled (m := 2 * i - 1) (by rw [abs_le]; constructor <;> omega) 2 ?_ le_rfl
    show ((i : ℝ) - 1 / 2) / 2 = _
    push_cast
    ring
  eq i hi := by
    obtain ⟨h16, _, _⟩ := big (s := s) hp hb
    have hi' : i < 1354 := hi
    have h2 : i ≤ 2 ^ r.p := by omega
    refine exact_scaled (m := i) (by rw [abs_of_nonneg (by positivity)]; exact_mod_cast h2) 0 ?_ (by norm_num)
    show (i : ℝ) = _
    norm_num
  eg i hi := by
    obtain ⟨h16, _, _⟩ := big (s := s) hp hb
    have hi' : i < 2708 := hi
    have h2 : i ≤ 2 ^ r.p := by omega
    refine exact_scaled (m := i) (by rw [abs_of_nonneg (by positivity)]; exact_mod_cast h2) 1 ?_ (by norm_num)
    show (i : ℝ) / 2 = _
    norm_num
  hη := by norm_num
  hu := (big (s := s) hp hb).2.2

theorem unit250 {s : Nat} (hp : 16 ≤ r.p) (hb : 512 * s ≤ 2 ^ r.p) : Unit1 grid250 r s 0 where
  p1 i := by show ((i + 1 : Nat) : ℝ) = i + 1; push_cast; ring
  q1 i := by show ((i + 1 : Nat) : ℝ) = i + 1; push_cast; ring
  h0 := by show ((0 : Nat) : ℝ) - (((0 : Nat) : ℝ) - 3 / 2) / 4 ≤ 1 / 2; norm_num
  hl := by show (((39 : Nat) : ℝ) - 3 / 2) / 4 - ((9 : Nat) : ℝ) ≤ 1 / 2; norm_num
  g0 := by show ((0 : Nat) : ℝ) - ((0 : Nat) : ℝ) / 4 ≤ 1 / 2; norm_num
  gl := by show ((5415 : Nat) : ℝ) / 4 - ((1353 : Nat) : ℝ) ≤ 3 / 4; norm_num
  ep i hi := by
    have hi' : i < s * 10 := hi
    have h2 : i ≤ 2 ^ r.p := by omega
    refine exact_scaled (m := i) (by rw [abs_of_nonneg (by positivity)]; exact_mod_cast h2) 0 ?_ le_rfl
    show (i : ℝ) = _
    norm_num
  eh i hi := by
    have hi' : i < s * 40 := hi
    have h2 : 2 * i + 3 ≤ 2 ^ r.p := by omega
    have h3 : 2 * (i : ℤ) + 3 ≤ 2 ^ r.p := by exact_mod_cast h2
    refine exact_scaled (m := 2 * i - 3) (by rw [abs_le]; constructor <;> omega) 3 ?_ le_rfl
    show ((i : ℝ) - 3 / 2) / 4 = _
    push_cast
    ring
  eq i hi := by
    obtain ⟨h16, _, _⟩ := big (s := s) hp hb
    have hi' : i < 1354 := hi
    have h2 : i ≤ 2 ^ r.p := by omega
    refine exact_scaled (m := i) (by rw [abs_of_nonneg (by positivity)]; exact_mod_cast h2) 0 ?_ (by norm_num)
    show (i : ℝ) = _
    norm_num
  eg i hi := by
    obtain ⟨h16, _, _⟩ := big (s := s) hp hb
    have hi' : i < 5416 := hi
    have h2 : i ≤ 2 ^ r.p := by omega
    refine exact_scaled (m := i) (by rw [abs_of_nonneg (by positivity)]; exact_mod_cast h2) 2 ?_ (by norm_num)
    show (i : ℝ) / 4 = _
    norm_num
  hη := by norm_num
  hu := (big (s := s) hp hb).2.2

/-! ### C77 -/

theorem flvals_shape {a b : Nat} {m : List (List ℝ)} (h : Shape a b m) : Shape a b (flvals m : Mat (Fl r)) := by
  refine ⟨by rw [flvals, List.length_map]; exact h.1, ?_⟩
  intro x hx
  obtain ⟨x', hx', rfl⟩ := List.mem_map.mp hx
  rw [List.length_map]; exact h.2 x' hx'

/-- **C77 (5 km to 1 km)**, with rounding, trigonometric functions of relative error `ε` and a spline library of error `ρ`:
in the columns of the tie points every pixel is near the point of the straight line through the two tie points of its scan.
The last term comes from the row positions (multiples of 1/5) and grows with the number of scans. -/
theorem C77_modis5kmto1km (hp : 23 ≤ r.p) (h : LibRel r ε) (hε : ε ≤ 1 / 4096) (S : SplLib (Fl r)) (s : Nat) (hs : 1 ≤ s)
    (hb : 512 * s ≤ 2 ^ r.p) (hρ0 : 0 ≤ ρ) (hρ : ρ ≤ 1 / 100)
    (A : SplAcc S ((grid5.rows s).map r.rnd) (grid5.cols.map r.rnd) ρ) (lons lats : List (List ℝ))
    (h1 : Shape (2 * s) 271 lons) (h2 : Shape (2 * s) 271 lats) (hlon : ∀ x ∈ lons, ∀ y ∈ x, |y| ≤ 180)
    (hlat : ∀ x ∈ lats, ∀ y ∈ x, |y| ≤ 90) :
    ∃ lo la, modis5kmto1km S (flvals lons) (flvals lats) = .ok (lo, la) ∧ Shape (10 * s) 1354 lo ∧ Shape (10 * s) 1354 la ∧
      ∀ c a b : Nat, c < s → a < 10 → b < 271 → ∀ δ, 0 ≤ δ → Step lons lats (δ * 6370997) (2 * c) b →
        Accurate ε (16 * ρ + 89 * ε + 18 * s * r.u * δ)
          (chord 2 (tieXyz lons lats (2 * c) b) 7 (tieXyz lons lats (2 * c + 1) b) a)
          (el (row lo (10 * c + a)) (5 * b + 2), el (row la (10 * c + a)) (5 * b + 2)) := by
  rw [Nat.mul_comm 2 s] at h1 h2
  obtain ⟨lo, la, e, s1, s2, hh⟩ := geo_column_fl (flGrid5 (by omega) hs hb) (unit5 (by omega) hb) A hρ0 hρ hp h hε lons lats h1 h2
    hlon hlat
  rw [Nat.mul_comm 10 s]
  refine ⟨lo, la, by rw [modis5_fl S (by omega) hs hb (flvals_shape h1).1]; exact e, s1, s2, ?_⟩
  intro c a b hc ha hbb δ hδ0 hδ
  have := hh c hc a ha b hbb (5 * b + 2) (by show 5 * b + 2 < 1354; omega)
    (by show ((5 * b + 2 : Nat) : ℝ) / 5 = (2 + b * 5) / 5; push_cast; ring) 0 (by show 0 + 1 < 2; omega) (Or.inl rfl) (Or.inl rfl)
    δ hδ0 (by rw [show c * grid5.t + 0 = 2 * c by show c * 2 + 0 = _; ring]; exact hδ)
  rw [show c * grid5.t + 0 = 2 * c by show c * 2 + 0 = _; ring, show c * grid5.t + (0 + 1) = 2 * c + 1 by show c * 2 + (0 + 1) = _; ring,
    show c * grid5.k + a = 10 * c + a by show c * 10 + a = _; ring] at this
  have hl : ∀ x y : ℝ, lineThrough (grid5.p 0) x (grid5.p (0 + 1)) y (grid5.h a) = lineThrough 2 x 7 y a := by
    intro x y
    show lineThrough ((2 + ((0 : Nat) : ℝ) * 5) / 5) x ((2 + ((0 + 1 : Nat) : ℝ) * 5) / 5) y (a / 5) = _
    unfold lineThrough
    push_cast
    ring
  have hch : ∀ P Q, chord (grid5.p 0) P (grid5.p (0 + 1)) Q (grid5.h a) = chord 2 P 7 Q a := by
    intro P Q
    unfold chord
    rw [hl, hl, hl]
  rw [hch, show 9 * (2 * (s : ℝ) * r.u) * δ = 18 * s * r.u * δ by ring] at this
  exact this

/-- **C77 (5 km to 1 km, tie points)**: the pixel of a tie point carries the longitude and latitude of the tie point up to
rounding and the error of the spline library. -/
theorem C77_modis5kmto1km_ties (hp : 23 ≤ r.p) (h : LibRel r ε) (hε : ε ≤ 1 / 4096) (S : SplLib (Fl r)) (s : Nat) (hs : 1 ≤ s)
    (hb : 512 * s ≤ 2 ^ r.p) (hρ0 : 0 ≤ ρ) (hρ : ρ ≤ 1 / 100)
    (A : SplAcc S ((grid5.rows s).map r.rnd) (grid5.cols.map r.rnd) ρ) (lons lats : List (List ℝ))
    (h1 : Shape (2 * s) 271 lons) (h2 : Shape (2 * s) 271 lats) (hlon : ∀ x ∈ lons, ∀ y ∈ x, |y| ≤ 180)
    (hlat : ∀ x ∈ lats, ∀ y ∈ x, |y| ≤ 90) :
    ∃ lo la, modis5kmto1km S (flvals lons) (flvals lats) = .ok (lo, la) ∧
      ∀ i < 2 * s, ∀ b < 271, ∀ lon lat θ δ : ℝ, lon = (lons.getD i []).getD b 0 → lat = (lats.getD i []).getD b 0 → |lat| < 90 →
        0 ≤ δ → Step lons lats (δ * 6370997) (2 * (i / 2)) b →
        θ = (16 * ρ + 89 * ε + 18 * s * r.u * δ) / Real.cos (rad lat) → θ ≤ 1 / 100 →
        (∃ L, el (row lo (5 * i + 2)) (5 * b + 2) = .val L ∧
          (LonWithin (270 * √ε + 98 * θ) L lon ∨ (L = 0 ∧ 180 - 90 * θ ≤ |lon|))) ∧
        ∃ B, el (row la (5 * i + 2)) (5 * b + 2) = .val B ∧ |B - lat| ≤ 115 * θ + 950 * ε := by
  obtain ⟨lo, la, e, -, -, hh⟩ := C77_modis5kmto1km hp h hε S s hs hb hρ0 hρ A lons lats h1 h2 hlon hlat
  refine ⟨lo, la, e, ?_⟩
  intro i hi b hbb lon lat θ δ hlo hla hla90 hδ0 hδ hθ hθ'
  have hlon180 : |lon| ≤ 180 := by
    have hlt : i < lons.length := by rw [h1.1]; exact hi
    have hm : lons.getD i [] ∈ lons := by rw [getD_of_lt _ _ hlt]; exact List.getElem_mem _
    rw [hlo]
    exact hlon _ hm _ (mem_el (by rw [h1.2 _ hm]; exact hbb))
  have hn : NearSphere 6370997 0 lon lat (tieXyz lons lats i b) := by
    unfold tieXyz
    rw [← hlo, ← hla]
    simp [NearSphere]
  rcases Nat.even_or_odd' i with ⟨c, rfl | rfl⟩
  · have k := hh c 2 b (by omega) (by omega) hbb δ hδ0 (by rwa [Nat.mul_div_cancel_left c (by norm_num)] at hδ)
    have e2 : chord 2 (tieXyz lons lats (2 * c) b) 7 (tieXyz lons lats (2 * c + 1) b) ((2 : Nat) : ℝ)
        = tieXyz lons lats (2 * c) b := by
      unfold chord
      push_cast
      simp only [lineThrough_left]
    rw [e2, show 10 * c + 2 = 5 * (2 * c) + 2 by ring] at k
    exact k lon lat 0 θ hlon180 hla90 hn (by rw [hθ, zero_add]) hθ'
  · have k := hh c 7 b (by omega) (by omega) hbb δ hδ0 (by rwa [show (2 * c + 1) / 2 = c by omega] at hδ)
    have e2 : chord 2 (tieXyz lons lats (2 * c) b) 7 (tieXyz lons lats (2 * c + 1) b) ((7 : Nat) : ℝ)
        = tieXyz lons lats (2 * c + 1) b := by
      unfold chord
      push_cast
      simp only [lineThrough_right (show (2 : ℝ) ≠ 7 by norm_num)]
    rw [e2, show 10 * c + 7 = 5 * (2 * c + 1) + 2 by ring] at k
    exact k lon lat 0 θ hlon180 hla90 hn (by rw [hθ, zero_add]) hθ'

/-- steps between points of the sphere are bounded anyway -/
theorem step_two (lons lats : List (List ℝ)) (i b : Nat) : Step lons lats (2 * 6370997) i b := by
  have key : ∀ f : ℝ × ℝ × ℝ → ℝ, (f = (·.1) ∨ f = (·.2.1) ∨ f = (·.2.2)) →
      |f (tieXyz lons lats (i + 1) b) - f (tieXyz lons lats i b)| ≤ 2 * 6370997 := by
    intro f hf
    refine (abs_sub _ _).trans ?_
    have := sphere_le (R := 6370997) (lon := (lons.getD i []).getD b 0) (lat := (lats.getD i []).getD b 0) (by norm_num) f hf
    have := sphere_le (R := 6370997) (lon := (lons.getD (i + 1) []).getD b 0) (lat := (lats.getD (i + 1) []).getD b 0)
      (by norm_num) f hf
    unfold tieXyz
    linarith
  exact ⟨key (·.1) (Or.inl rfl), key (·.2.1) (Or.inr (Or.inl rfl)), key (·.2.2) (Or.inr (Or.inr rfl))⟩

/-- **C77 (1 km to 500 m)**, on one core: fine column `2b` lies on tie column `b`; there fine row `a` of scan `c`, at
`(a - 1/2) / 2` tie rows, is near the point of the straight line through the tie rows around it.  The row positions are exact,
so the number of scans does not matter. -/
theorem C77_modis1kmto500m (hp : 23 ≤ r.p) (h : LibRel r ε) (hε : ε ≤ 1 / 4096) (S : SplLib (Fl r)) (s : Nat) (hs : 1 ≤ s)
    (hb : 512 * s ≤ 2 ^ r.p) (hρ0 : 0 ≤ ρ) (hρ : ρ ≤ 1 / 100)
    (A : SplAcc S ((grid500.rows s).map r.rnd) (grid500.cols.map r.rnd) ρ) (lons lats : List (List ℝ))
    (h1 : Shape (10 * s) 1354 lons) (h2 : Shape (10 * s) 1354 lats) (hlon : ∀ x ∈ lons, ∀ y ∈ x, |y| ≤ 180)
    (hlat : ∀ x ∈ lats, ∀ y ∈ x, |y| ≤ 90) :
    ∃ lo la, modis1kmto500m S (flvals lons) (flvals lats) 1 [] = .ok (lo, la) ∧ Shape (20 * s) 2708 lo ∧ Shape (20 * s) 2708 la ∧
      ∀ c a b j : Nat, c < s → a < 20 → b < 1354 → j < 9 → (j = 0 ∨ 2 * j < a) → (j = 8 ∨ a ≤ 2 * j + 2) →
        Accurate ε (16 * ρ + 89 * ε)
          (chord j (tieXyz lons lats (10 * c + j) b) (j + 1) (tieXyz lons lats (10 * c + j + 1) b) ((a - 1 / 2) / 2))
          (el (row lo (20 * c + a)) (2 * b), el (row la (20 * c + a)) (2 * b)) := by
  rw [Nat.mul_comm 10 s] at h1 h2
  obtain ⟨lo, la, e, s1, s2, hh⟩ := geo_column_fl (flGrid500 (by omega) hs hb) (unit500 (by omega) hb) A hρ0 hρ hp h hε lons lats
    h1 h2 hlon hlat
  rw [Nat.mul_comm 20 s]
  refine ⟨lo, la, ?_, s1, s2, ?_⟩
  · unfold modis1kmto500m
    rw [if_neg (by norm_num), modis500_fl S (by omega) hb (flvals_shape h1).1]
    exact e
  intro c a b j hc ha hbb hj g1 g2
  have := hh c hc a ha b hbb (2 * b) (by show 2 * b < 2708; omega)
    (by show ((2 * b : Nat) : ℝ) / 2 = b; push_cast; ring) j (by show j + 1 < 10; omega)
    (by
      rcases g1 with g | g
      · exact Or.inl g
      · right
        have : ((2 * j + 1 : Nat) : ℝ) ≤ a := by exact_mod_cast g
        show (j : ℝ) ≤ (a - 1 / 2) / 2
        push_cast at this; linarith)
    (by
      rcases g2 with g | g
      · left; show j + 2 = 10; omega
      · right
        have : (a : ℝ) ≤ ((2 * j + 2 : Nat) : ℝ) := by exact_mod_cast g
        show ((a : ℝ) - 1 / 2) / 2 ≤ ((j + 1 : Nat) : ℝ)
        push_cast at this ⊢; linarith) 2 (by norm_num) (step_two _ _ _ _)
  rw [show c * grid500.t + j = 10 * c + j by show c * 10 + j = _; ring,
    show c * grid500.t + (j + 1) = 10 * c + j + 1 by show c * 10 + (j + 1) = _; ring,
    show c * grid500.k + a = 20 * c + a by show c * 20 + a = _; ring, mul_zero, zero_mul, add_zero] at this
  have e2 : (grid500.p (j + 1) : ℝ) = j + 1 := by show ((j + 1 : Nat) : ℝ) = _; push_cast; ring
  rw [e2] at this
  exact this

/-- **C77 (1 km to 250 m)**, on one core: the same with fine column `4b` and fine row `a` at `(a - 3/2) / 4` tie rows. -/
theorem C77_modis1kmto250m (hp : 23 ≤ r.p) (h : LibRel r ε) (hε : ε ≤ 1 / 4096) (S : SplLib (Fl r)) (s : Nat) (hs : 1 ≤ s)
    (hb : 512 * s ≤ 2 ^ r.p) (hρ0 : 0 ≤ ρ) (hρ : ρ ≤ 1 / 100)
    (A : SplAcc S ((grid250.rows s).map r.rnd) (grid250.cols.map r.rnd) ρ) (lons lats : List (List ℝ))
    (h1 : Shape (10 * s) 1354 lons) (h2 : Shape (10 * s) 1354 lats) (hlon : ∀ x ∈ lons, ∀ y ∈ x, |y| ≤ 180)
    (hlat : ∀ x ∈ lats, ∀ y ∈ x, |y| ≤ 90) :
    ∃ lo la, modis1kmto250m S (flvals lons) (flvals lats) 1 [] = .ok (lo, la) ∧ Shape (40 * s) 5416 lo ∧ Shape (40 * s) 5416 la ∧
      ∀ c a b j : Nat, c < s → a < 40 → b < 1354 → j < 9 → (j = 0 ∨ 4 * j + 1 < a) → (j = 8 ∨ a ≤ 4 * j + 5) →
        Accurate ε (16 * ρ + 89 * ε)
          (chord j (tieXyz lons lats (10 * c + j) b) (j + 1) (tieXyz lons lats (10 * c + j + 1) b) ((a - 3 / 2) / 4))
          (el (row lo (40 * c + a)) (4 * b), el (row la (40 * c + a)) (4 * b)) := by
  rw [Nat.mul_comm 10 s] at h1 h2
  obtain ⟨lo, la, e, s1, s2, hh⟩ := geo_column_fl (flGrid250 (by omega) hs hb) (unit250 (by omega) hb) A hρ0 hρ hp h hε lons lats
    h1 h2 hlon hlat
  rw [Nat.mul_comm 40 s]
  refine ⟨lo, la, ?_, s1, s2, ?_⟩
  · unfold modis1kmto250m
    rw [if_neg (by norm_num), modis250_fl S (by omega) hb (flvals_shape h1).1]
    exact e
  intro c a b j hc ha hbb hj g1 g2
  have := hh c hc a ha b hbb (4 * b) (by show 4 * b < 5416; omega)
    (by show ((4 * b : Nat) : ℝ) / 4 = b; push_cast; ring) j (by show j + 1 < 10; omega)
    (by
      rcases g1 with g | g
      · exact Or.inl g
      · right
        have : ((4 * j + 2 : Nat) : ℝ) ≤ a := by exact_mod_cast g
        show (j : ℝ) ≤ (a - 3 / 2) / 4
        push_cast at this; linarith)
    (by
      rcases g2 with g | g
      · left; show j + 2 = 10; omega
      · right
        have : (a : ℝ) ≤ ((4 * j + 5 : Nat) : ℝ) := by exact_mod_cast g
        show ((a : ℝ) - 3 / 2) / 4 ≤ ((j + 1 : Nat) : ℝ)
        push_cast at this ⊢; linarith) 2 (by norm_num) (step_two _ _ _ _)
  rw [show c * grid250.t + j = 10 * c + j by show c * 10 + j = _; ring,
    show c * grid250.t + (j + 1) = 10 * c + j + 1 by show c * 10 + (j + 1) = _; ring,
    show c * grid250.k + a = 40 * c + a by show c * 40 + a = _; ring, mul_zero, zero_mul, add_zero] at this
  have e2 : (grid250.p (j + 1) : ℝ) = j + 1 := by show ((j + 1 : Nat) : ℝ) = _; push_cast; ring
  rw [e2] at this
  exact this

/-! ### a spline library that meets the assumption -/

/-- a number without its precision -/
def toFP : Fl r → FP ℝ
  | .val x => .val x
  | .bad => .bad

/-- piecewise linear interpolation, correctly rounded at the end, for every order -/
noncomputable def splRnd (r : Rounding) : SplLib (Fl r) := fun _ xs ys x =>
  match linSeg (xs.map toFP) (ys.map toFP) (toFP x) with
  | .val v => .val (r.rnd v)
  | .bad => .bad

theorem splAcc_splRnd {R C : List ℝ} (hR : R.Pairwise (· < ·)) (hC : C.Pairwise (· < ·)) (hC2 : 1 < C.length) :
    SplAcc (splRnd r) R C r.u := by
  have hm : ∀ l : List ℝ, (l.map (Fl.val : ℝ → Fl r)).map toFP = l.map FP.val := by
    intro l; rw [List.map_map]; rfl
  constructor
  · intro ys M x i hl hi hM hx h1 h2
    refine ⟨r.rnd (lineThrough (R.getD i 0) (ys.getD i 0) (R.getD (i + 1) 0) (ys.getD (i + 1) 0) x), ?_, r.rep _, ?_⟩
    · unfold splRnd
      rw [hm, hm]
      show (match linSeg (R.map FP.val) (ys.map FP.val) (FP.val x) with | .val v => Fl.val (r.rnd v) | .bad => Fl.bad) = _
      rw [linSeg_segment R hR ys hl i hi x (Or.inr h1) (Or.inr h2)]
    · refine (r.abs_rnd_sub_le_u _).trans (mul_le_mul_of_nonneg_left ?_ r.u_pos.le)
      have hlt : R.getD i 0 < R.getD (i + 1) 0 := by
        rw [getD_of_lt _ _ (by omega), getD_of_lt _ _ hi]
        exact List.pairwise_iff_getElem.mp hR _ _ (by omega) hi (by omega)
      have m1 := (hM _ (mem_el (b := i) (by omega))).2
      have m2 := (hM _ (mem_el (b := i + 1) (by omega))).2
      have := segment_near (a := R.getD i 0) (b := R.getD (i + 1) 0) (x := x) (c0 := 0) (σ := 0) (D := 0) (η := 0) (e := M) hlt h1 h2
        (by simp) (by simp) (by simp) (by simp) (by simpa using m1) (by simpa using m2)
      simpa using this
  · intro ys M i hl hi hM
    refine ⟨r.rnd (ys.getD i 0), ?_, r.rep _, ?_⟩
    · unfold splRnd
      rw [hm, hm]
      show (match linSeg (C.map FP.val) (ys.map FP.val) (FP.val (C.getD i 0)) with | .val v => Fl.val (r.rnd v) | .bad => Fl.bad) = _
      have := linSeg_node C hC ys hl hC2 i hi
      rw [getD_of_lt _ _ hi, getD_of_lt _ _ (by omega)]
      rw [this]
    · exact (r.abs_rnd_sub_le_u _).trans (mul_le_mul_of_nonneg_left (hM _ (mem_el (by omega))).2 r.u_pos.le)

private theorem u53 : (Rounding.correct 53 (by norm_num)).u = 1 / 2 ^ 53 := by
  show (2 : ℝ) ^ (-((53 : ℕ) : ℤ)) = _
  rw [zpow_neg, zpow_natCast]; norm_num

private theorem bounded_grid {a b : Nat} {f : Nat → Nat → ℝ} {m : ℝ} (hf : ∀ i < a, ∀ j < b, |f i j| ≤ m) :
    ∀ x ∈ (List.range a).map (fun i => (List.range b).map (f i)), ∀ y ∈ x, |y| ≤ m := by
  intro x hx y hy
  obtain ⟨i, hi, rfl⟩ := List.mem_map.mp hx
  obtain ⟨j, hj, rfl⟩ := List.mem_map.mp hy
  exact hf i (List.mem_range.mp hi) j (List.mem_range.mp hj)

/-- doubles, three scans of tie points that move with row and column -/
example := C77_modis5kmto1km_ties (r := .correct 53 (by norm_num)) (by show 23 ≤ 53; norm_num) (libRel_correct 53 (by norm_num))
  (by rw [u53]; norm_num) (splRnd _) 3 (by norm_num) (by show 512 * 3 ≤ 2 ^ 53; norm_num) (Rounding.u_pos _).le (by rw [u53]; norm_num)
  (splAcc_splRnd (rows_fl_sorted (flGrid5 (s := 3) (by show 16 ≤ 53; norm_num) (by norm_num) (by show 512 * 3 ≤ 2 ^ 53; norm_num)))
    (cols_fl_sorted (flGrid5 (s := 3) (by show 16 ≤ 53; norm_num) (by norm_num) (by show 512 * 3 ≤ 2 ^ 53; norm_num)))
    (by rw [List.length_map]; have := cols_length grid5; have : (4 : Nat) ≤ grid5.n := grid5.hn; omega))
  _ _ (shape_grid 6 271 (fun i j => (j : ℝ) / 10 + i)) (shape_grid 6 271 (fun i j => (i : ℝ) + j / 100))
  (bounded_grid (fun i hi j hj => by
    have h1 : (i : ℝ) ≤ 6 := by exact_mod_cast hi.le
    have h2 : (j : ℝ) ≤ 271 := by exact_mod_cast hj.le
    rw [abs_of_nonneg (by positivity)]; linarith))
  (bounded_grid (fun i hi j hj => by
    have h1 : (i : ℝ) ≤ 6 := by exact_mod_cast hi.le
    have h2 : (j : ℝ) ≤ 271 := by exact_mod_cast hj.le
    rw [abs_of_nonneg (by positivity)]; linarith))

example := C77_modis1kmto500m (r := .correct 53 (by norm_num)) (by show 23 ≤ 53; norm_num) (libRel_correct 53 (by norm_num))
  (by rw [u53]; norm_num) (splRnd _) 3 (by norm_num) (by show 512 * 3 ≤ 2 ^ 53; norm_num) (Rounding.u_pos _).le (by rw [u53]; norm_num)
  (splAcc_splRnd (rows_fl_sorted (flGrid500 (s := 3) (by show 16 ≤ 53; norm_num) (by norm_num) (by show 512 * 3 ≤ 2 ^ 53; norm_num)))
    (cols_fl_sorted (flGrid500 (s := 3) (by show 16 ≤ 53; norm_num) (by norm_num) (by show 512 * 3 ≤ 2 ^ 53; norm_num)))
    (by rw [List.length_map]; have := cols_length grid500; have : (4 : Nat) ≤ grid500.n := grid500.hn; omega))
  _ _ (shape_grid 30 1354 (fun i j => (j : ℝ) / 20 + i)) (shape_grid 30 1354 (fun i j => (i : ℝ) + j / 100))
  (bounded_grid (fun i hi j hj => by
    have h1 : (i : ℝ) ≤ 30 := by exact_mod_cast hi.le
    have h2 : (j : ℝ) ≤ 1354 := by exact_mod_cast hj.le
    rw [abs_of_nonneg (by positivity)]; linarith))
  (bounded_grid (fun i hi j hj => by
    have h1 : (i : ℝ) ≤ 30 := by exact_mod_cast hi.le
    have h2 : (j : ℝ) ≤ 1354 := by exact_mod_cast hj.le
    rw [abs_of_nonneg (by positivity)]; linarith))

example := C77_modis1kmto250m (r := .correct 53 (by norm_num)) (by show 23 ≤ 53; norm_num) (libRel_correct 53 (by norm_num))
  (by rw [u53]; norm_num) (splRnd _) 3 (by norm_num) (by show 512 * 3 ≤ 2 ^ 53; norm_num) (Rounding.u_pos _).le (by rw [u53]; norm_num)
  (splAcc_splRnd (rows_fl_sorted (flGrid250 (s := 3) (by show 16 ≤ 53; norm_num) (by norm_num) (by show 512 * 3 ≤ 2 ^ 53; norm_num)))
    (cols_fl_sorted (flGrid250 (s := 3) (by show 16 ≤ 53; norm_num) (by norm_num) (by show 512 * 3 ≤ 2 ^ 53; norm_num)))
    (by rw [List.length_map]; have := cols_length grid250; have : (4 : Nat) ≤ grid250.n := grid250.hn; omega))
  _ _ (shape_grid 30 1354 (fun i j => (j : ℝ) / 20 + i)) (shape_grid 30 1354 (fun i j => (i : ℝ) + j / 100))
  (bounded_grid (fun i hi j hj => by
    have h1 : (i : ℝ) ≤ 30 := by exact_mod_cast hi.le
    have h2 : (j : ℝ) ≤ 1354 := by exact_mod_cast hj.le
    rw [abs_of_nonneg (by positivity)]; linarith))
  (bounded_grid (fun i hi j hj => by
    have h1 : (i : ℝ) ≤ 30 := by exact_mod_cast hi.le
    have h2 : (j : ℝ) ≤ 1354 := by exact_mod_cast hj.le
    rw [abs_of_nonneg (by positivity)]; linarith))

example := C77_modis5kmto1km (r := .correct 53 (by norm_num)) (by show 23 ≤ 53; norm_num) (libRel_correct 53 (by norm_num))
  (by rw [u53]; norm_num) (splRnd _) 3 (by norm_num) (by show 512 * 3 ≤ 2 ^ 53; norm_num) (Rounding.u_pos _).le (by rw [u53]; norm_num)
  (splAcc_splRnd (rows_fl_sorted (flGrid5 (s := 3) (by show 16 ≤ 53; norm_num) (by norm_num) (by show 512 * 3 ≤ 2 ^ 53; norm_num)))
    (cols_fl_sorted (flGrid5 (s := 3) (by show 16 ≤ 53; norm_num) (by norm_num) (by show 512 * 3 ≤ 2 ^ 53; norm_num)))
    (by rw [List.length_map]; have := cols_length grid5; have : (4 : Nat) ≤ grid5.n := grid5.hn; omega))
  _ _ (shape_grid 6 271 (fun i j => (j : ℝ) / 10 + i)) (shape_grid 6 271 (fun i j => (i : ℝ) + j / 100))
  (bounded_grid (fun i hi j hj => by
    have h1 : (i : ℝ) ≤ 6 := by exact_mod_cast hi.le
    have h2 : (j : ℝ) ≤ 271 := by exact_mod_cast hj.le
    rw [abs_of_nonneg (by positivity)]; linarith))
  (bounded_grid (fun i hi j hj => by
    have h1 : (i : ℝ) ≤ 6 := by exact_mod_cast hi.le
    have h2 : (j : ℝ) ≤ 271 := by exact_mod_cast hj.le
    rw [abs_of_nonneg (by positivity)]; linarith))

end Verif.Props
