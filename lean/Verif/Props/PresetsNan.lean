import Verif.Props.PresetsMore

/-!
# The counterexample of C16: a scan without numbers spoils the last line of the scan before it
-/

set_option linter.unusedSectionVars false

namespace Verif.Props
open Verif Verif.Interpolator Verif.Spec Verif.Presets Verif.Multi FP

/-- all entries are `c` -/
def AllEq (c : FP ℝ) (m : Mat (FP ℝ)) : Prop := ∀ r ∈ m, ∀ v ∈ r, v = c

/-- the two constants used: zero and the non-number -/
def Flat (c : FP ℝ) : Prop := c = val 0 ∨ c = bad

theorem extrapolated_flat {c : FP ℝ} (hc : Flat c) {p0 p1 : ℝ} (h : p0 ≠ p1) (x : ℝ) :
    extrapolated (val p0) (val p1) c c (val x) = c := by
  rcases hc with rfl | rfl
  · rw [extrapolated_val h]; simp [lineThrough]
  · simp [extrapolated]

theorem linSeg_flat {c : FP ℝ} (hc : Flat c) (ks : List ℝ) (hs : ks.Pairwise (· < ·)) (ys : List (FP ℝ))
    (hl : ys.length = ks.length) (h2 : 2 ≤ ks.length) (hy : ∀ y ∈ ys, y = c) (x : ℝ) :
    linSeg (ks.map val) ys (val x) = c := by
  have hys : ys = ks.map (fun _ => c) := by
    rw [List.map_const', ← hl]; exact List.eq_replicate_iff.mpr ⟨rfl, hy⟩
  rw [hys]
  rcases hc with rfl | rfl
  · have := linSeg_affine 0 0 x ks hs h2
    simpa using this
  · clear hys hy hl hs
    induction ks with
    | nil => simp at h2
    | cons k0 ks ih =>
      match ks, h2, ih with
      | k1 :: ks, _, ih =>
        by_cases he : (((ks.map (val : ℝ → FP ℝ)).isEmpty || Arith.lt (val x : FP ℝ) (val k1)) = true)
        · simp only [List.map_cons, linSeg, he, if_true]
          simp
        · cases ks with
          | nil => simp at he
          | cons k2 ks =>
            have := ih (by simp)
            simp only [List.map_cons] at this he ⊢
            rw [linSeg, if_neg he, this]

theorem scanFill_flat (G : ScanGrid ℝ) {c : FP ℝ} (hc : Flat c) {m : Mat (FP ℝ)} (hl : m.length = G.t) (hm : AllEq c m) :
    AllEq c (G.scanFill m) := by
  have ht := G.ht
  have hrow : ∀ j < G.t, ∀ v ∈ row m j, v = c := by
    intro j hj
    have : row m j = m[j]'(by omega) := by simp [row, hl, hj]
    rw [this]; exact hm _ (List.getElem_mem _)
  have hsel0 : ∀ j < G.t, (List.range G.t).getD j 0 = j := by
    intro j hj; simp [hj]
  intro r hr v hv
  unfold ScanGrid.scanFill bracketed at hr
  simp only [List.length_range, hsel0 0 (by omega), hsel0 1 (by omega), hsel0 (G.t - 2) (by omega),
    hsel0 (G.t - 1) (by omega), List.mem_append, List.mem_singleton, List.mem_map, List.mem_range,
    poss_el G.p (show 0 < G.t by omega), poss_el G.p (show 1 < G.t by omega),
    poss_el G.p (show G.t - 2 < G.t by omega), poss_el G.p (show G.t - 1 < G.t by omega)] at hr
  rcases hr with (rfl | ⟨j, hj, rfl⟩) | rfl
  · obtain ⟨a, ha, b, hb, rfl⟩ := mem_zipWith hv
    rw [hrow 0 (by omega) a ha, hrow 1 (by omega) b hb]
    exact extrapolated_flat hc (ne_of_lt (G.pmono (by omega))) _
  · exact hrow j hj v hv
  · obtain ⟨a, ha, b, hb, rfl⟩ := mem_zipWith hv
    rw [hrow (G.t - 2) (by omega) a ha, hrow (G.t - 1) (by omega) b hb]
    exact extrapolated_flat hc (ne_of_lt (G.pmono (by omega))) _

theorem colFill_flat (G : ScanGrid ℝ) {c : FP ℝ} (hc : Flat c) {r : List (FP ℝ)} (hl : r.length = G.n)
    (hr : ∀ v ∈ r, v = c) : ∀ v ∈ G.colFill r, v = c := by
  have hn := G.hn
  have hN := G.hN
  have hE : ∀ (f : Nat → ℝ) n k, 1 ≤ k → k ≤ n → elEnd ((poss f n).map (val : ℝ → FP ℝ)) k = val (f (n - k)) := by
    intro f n k h1 h2
    have := poss_el f (show n - k < n by omega)
    simpa [el, elEnd, poss_length] using this
  have hel : ∀ i < r.length, el r i = c := by
    intro i hi
    rw [el, getD_of_lt _ _ hi]
    exact hr _ (List.getElem_mem _)
  intro v hv
  rcases withEdges_mem hv with rfl | rfl | h
  · show extrapolated (el ((poss G.q G.n).map val) 0) (el ((poss G.q G.n).map val) 1) (el r 0) (el r 1)
      (el ((poss G.g G.N).map val) 0) = c
    rw [poss_el G.q (by omega), poss_el G.q (by omega), poss_el G.g (by omega), hel 0 (by omega), hel 1 (by omega)]
    exact extrapolated_flat hc (ne_of_lt (G.hqm _ _ (by omega))) _
  · show extrapolated (elEnd ((poss G.q G.n).map val) 2) (elEnd ((poss G.q G.n).map val) 1) (elEnd r 2) (elEnd r 1)
      (elEnd ((poss G.g G.N).map val) 1) = c
    rw [hE _ _ _ (by omega) (by omega), hE _ _ _ (by omega) (by omega), hE _ _ _ (by omega) (by omega),
      show elEnd r 2 = el r (r.length - 2) from rfl, show elEnd r 1 = el r (r.length - 1) from rfl,
      hel _ (by omega), hel _ (by omega)]
    exact extrapolated_flat hc (ne_of_lt (G.hqm _ _ (by omega))) _
  · exact hr v h

/-- the columns of a flat scan, interpolated across the scan -/
theorem vals_flat (G : ScanGrid ℝ) {c : FP ℝ} (hc : Flat c) {m : Mat (FP ℝ)} (hl : m.length = G.t)
    (hw : ∀ r ∈ m, r.length = G.n) (hm : AllEq c m) (y : ℝ) :
    ((G.scanFill m).map G.colFill).map (fun r => linSeg (G.cols.map val) r (clamp (G.cols.map val) (val y)))
      = List.replicate (G.t + 2) c := by
  have hn := G.hn
  have hcl := cols_length G
  rw [List.eq_replicate_iff]
  refine ⟨by simp [ScanGrid.scanFill, bracketed], ?_⟩
  intro v hv
  obtain ⟨r, hr, rfl⟩ := List.mem_map.mp hv
  obtain ⟨r', hr', rfl⟩ := List.mem_map.mp hr
  have hw' := scanFill_width G hw hl r' hr'
  obtain ⟨z, hz⟩ := clamp_num (ks := G.cols) y
  rw [hz]
  exact linSeg_flat hc _ (cols_sorted G) _ (colFill_width G hw') (by omega)
    (colFill_flat G hc hw' (scanFill_flat G hc hl hm r' hr')) _

/-- the entry of the interpolated array at fine row `i`, fine column `j` -/
theorem rectVal_entry (G : ScanGrid ℝ) {s : Nat} (Ds : List (List (Mat (FP ℝ)))) (S : SplLib (FP ℝ)) (d : Mat (FP ℝ))
    {i j : Nat} (hi : i < s * G.k) (hj : j < G.N) :
    ∃ r, (rectVal S (G.filled s Ds) d)[i]? = some r ∧ r[j]? = some (S 1 ((G.rows s).map val)
      (d.map (fun row => S 3 (G.cols.map val) row (clamp (G.cols.map val) (val (G.g j)))))
      (clamp ((G.rows s).map val) (val (G.h i)))) := by
  unfold rectVal
  show ∃ r, (((poss G.h (s * G.k)).map val).map _)[i]? = some r ∧ _
  refine ⟨_, by rw [List.getElem?_map, List.getElem?_map, poss, List.getElem?_map, List.getElem?_range hi]; rfl, ?_⟩
  show (((poss G.g G.N).map val).map _)[j]? = _
  rw [List.getElem?_map, List.getElem?_map, poss, List.getElem?_map, List.getElem?_range hj]
  rfl

/-- an entry of the latitudes -/
theorem toLonLat_entry {X Y Z : Mat (FP ℝ)} {r : Mat (FP ℝ) × Mat (FP ℝ)} (h : toLonLat [X, Y, Z] = .ok r) {i j : Nat}
    {rx ry rz : List (FP ℝ)} {x y z : FP ℝ} (hX : X[i]? = some rx) (hY : Y[i]? = some ry) (hZ : Z[i]? = some rz)
    (hx : rx[j]? = some x) (hy : ry[j]? = some y) (hz : rz[j]? = some z) :
    ∃ rl, r.2[i]? = some rl ∧ rl[j]? = some (Geo.xyz2lonlat Geo.earthRadius Geo.defaultThr true (x, y, z)).2 := by
  unfold toLonLat at h
  simp only [Except.ok.injEq] at h
  subst h
  have e1 : (List.zipWith List.zip Y Z)[i]? = some (ry.zip rz) := by
    rw [List.getElem?_zipWith, hY, hZ]
  have e2 : (ry.zip rz)[j]? = some (y, z) := by
    rw [List.getElem?_zip_eq_some]; exact ⟨hy, hz⟩
  refine ⟨_, by simp only; rw [List.getElem?_zipWith, hX, e1], ?_⟩
  rw [List.getElem?_zipWith, hx, e2]

theorem z_zero : (Geo.lonlat2xyz Geo.earthRadius (val 0) (val 0) : FP ℝ × FP ℝ × FP ℝ).2.2 = val 0 := by
  simp [Geo.lonlat2xyz, Geo.deg2rad, Geo.earthRadius]

theorem z_bad : (Geo.lonlat2xyz Geo.earthRadius bad bad : FP ℝ × FP ℝ × FP ℝ).2.2 = bad := by
  simp [Geo.lonlat2xyz, Geo.deg2rad, Geo.earthRadius]

theorem allEq_z {a b c : FP ℝ} (h : (Geo.lonlat2xyz Geo.earthRadius a b).2.2 = c) {lo la : Mat (FP ℝ)} (hlo : AllEq a lo)
    (hla : AllEq b la) :
    AllEq c (List.zipWith (List.zipWith (fun lon lat => (Geo.lonlat2xyz Geo.earthRadius lon lat).2.2)) lo la) := by
  intro r hr v hv
  obtain ⟨ra, h1, rb, h2, rfl⟩ := mem_zipWith hr
  obtain ⟨x, h3, y, h4, rfl⟩ := mem_zipWith hv
  rw [hlo ra h1 x h3, hla rb h2 y h4, h]

theorem allEq_const (a b : Nat) (c : FP ℝ) : AllEq c (List.replicate a (List.replicate b c)) := by
  intro r hr v hv
  rw [(List.mem_replicate.mp hr).2] at hv
  exact (List.mem_replicate.mp hv).2

theorem lat_bad (x y : FP ℝ) : (Geo.xyz2lonlat Geo.earthRadius Geo.defaultThr true (x, y, bad)).2 = (bad : FP ℝ) := by
  simp [Geo.xyz2lonlat, asign, aabs]

theorem lat_zero (x y : FP ℝ) : ∃ v : ℝ, (Geo.xyz2lonlat Geo.earthRadius Geo.defaultThr true (x, y, val 0)).2
    = (val v : FP ℝ) := by
  refine ⟨90 - Real.arccos 0 * (180 / Real.pi), ?_⟩
  have hR : (63709970 / 10 ^ 1 : ℝ) ≠ 0 := by norm_num
  simp [Geo.xyz2lonlat, Geo.earthRadius, Geo.defaultThr, aabs, Geo.rad2deg]
  rw [acos_val_of (by norm_num) (by norm_num)]
  simp [Real.arccos_zero]

/-- A good scan (everything at longitude and latitude 0) followed by a scan without numbers: the last line of the good
scan is lost when both are processed together, and kept when it is processed alone. -/
theorem preset_not_local {G : ScanGrid ℝ} {F} (hF : IsPreset G (fun _ => linSeg) F) :
    ∃ (good bad' : Mat (FP ℝ)) (r0 r1 r : Mat (FP ℝ) × Mat (FP ℝ)), Shape G.t G.n good ∧ Shape G.t G.n bad' ∧
      F good good = .ok r0 ∧ F bad' bad' = .ok r1 ∧ F (good ++ bad') (good ++ bad') = .ok r ∧ r.2 ≠ r0.2 ++ r1.2 := by
  have hk := G.hk
  have ht := G.ht
  have hN := G.hN
  set S : SplLib (FP ℝ) := fun _ => linSeg with hS
  obtain ⟨goodScan, hg, ag⟩ : ∃ m, Shape G.t G.n m ∧ AllEq (val 0) m :=
    ⟨List.replicate G.t (List.replicate G.n (val 0)), shape_const _ _ _, allEq_const _ _ _⟩
  obtain ⟨badScan, hb, ab⟩ : ∃ m, Shape G.t G.n m ∧ AllEq bad m :=
    ⟨List.replicate G.t (List.replicate G.n bad), shape_const _ _ _, allEq_const _ _ _⟩
  have hgb : Shape (2 * G.t) G.n (goodScan ++ badScan) := by
    refine ⟨by rw [List.length_append, hg.1, hb.1]; ring, ?_⟩
    intro r hr
    rcases List.mem_append.mp hr with h | h
    · exact hg.2 r h
    · exact hb.2 r h
  obtain ⟨lo0, la0, e0, s0, s0'⟩ := preset_shape hF (s := 1) (le_refl _) (by rw [Nat.one_mul]; exact hg) (by rw [Nat.one_mul]; exact hg)
  obtain ⟨lo1, la1, e1, s1, s1'⟩ := preset_shape hF (s := 1) (le_refl _) (by rw [Nat.one_mul]; exact hb) (by rw [Nat.one_mul]; exact hb)
  obtain ⟨lo, la, e, s, s'⟩ := preset_shape hF (s := 2) (by norm_num) hgb hgb
  refine ⟨goodScan, badScan, _, _, _, hg, hb, e0, e1, e, ?_⟩
  -- an entry of the latitudes of a list of scans
  have entry : ∀ (n : Nat) (hn : 1 ≤ n) (scs : List (Mat (FP ℝ))) (hl : scs.length = n)
      (hsh : ∀ m ∈ scs, Shape G.t G.n m) (lo la : Mat (FP ℝ)), F scs.flatten scs.flatten = .ok (lo, la) →
      ∃ x y z, ∃ rl, la[G.k - 1]? = some rl ∧ rl[0]? = some (Geo.xyz2lonlat Geo.earthRadius Geo.defaultThr true (x, y, z)).2 ∧
        z = linSeg ((G.rows n).map val) (scs.flatMap (fun m => ((G.scanFill (List.zipWith (List.zipWith
          (fun lon lat => (Geo.lonlat2xyz Geo.earthRadius lon lat).2.2)) m m)).map G.colFill).map
            (fun r => linSeg (G.cols.map val) r (clamp (G.cols.map val) (val (G.g 0))))))
          (clamp ((G.rows n).map val) (val (G.h (G.k - 1)))) := by
    intro n hn scs hl hsh lo la hq
    rw [hF.eq n hn _ _ (by
        rw [List.length_flatten, List.eq_replicate_iff.mpr (⟨rfl, by
          intro b hb; obtain ⟨m, hm, rfl⟩ := List.mem_map.mp hb; exact (hsh m hm).1⟩ :
          (scs.map List.length).length = (scs.map List.length).length ∧ ∀ b ∈ scs.map List.length, b = G.t),
          List.sum_replicate, List.length_map, hl, smul_eq_mul]),
      geo_state G hn S hl ⟨rfl, by
        intro m hm; exact (hsh m (by simpa using hm)).1, by
        intro m hm; exact (hsh m (by simpa using hm)).2⟩] at hq
    have hi : G.k - 1 < n * G.k := by
      have : 1 * G.k ≤ n * G.k := Nat.mul_le_mul_right _ hn
      omega
    have hj : 0 < G.N := by omega
    obtain ⟨rx, a1, a2⟩ := rectVal_entry G (s := n) (tieScans scs scs) S
      (((tieScans scs scs).getD 0 []).flatMap (fun m => (G.scanFill m).map G.colFill)) hi hj
    obtain ⟨ry, b1, b2⟩ := rectVal_entry G (s := n) (tieScans scs scs) S
      (((tieScans scs scs).getD 1 []).flatMap (fun m => (G.scanFill m).map G.colFill)) hi hj
    obtain ⟨rz, c1, c2⟩ := rectVal_entry G (s := n) (tieScans scs scs) S
      (((tieScans scs scs).getD 2 []).flatMap (fun m => (G.scanFill m).map G.colFill)) hi hj
    obtain ⟨rl, d1, d2⟩ := toLonLat_entry hq a1 b1 c1 a2 b2 c2
    refine ⟨_, _, _, rl, d1, d2, ?_⟩
    show linSeg _ (List.map _ (List.flatMap _ (List.zipWith _ scs scs))) _ = _
    rw [List.map_flatMap, List.zipWith_self, List.flatMap_map]
  have zshape : ∀ m : Mat (FP ℝ), Shape G.t G.n m → Shape G.t G.n (List.zipWith (List.zipWith
      (fun lon lat => (Geo.lonlat2xyz Geo.earthRadius lon lat).2.2)) m m) := by
    intro m hm
    refine ⟨by simp [hm.1], ?_⟩
    intro r hr
    obtain ⟨a, ha, b, hb, rfl⟩ := mem_zipWith hr
    simp [hm.2 a ha, hm.2 b hb]
  have vg := vals_flat G (Or.inl rfl) (zshape _ hg).1 (zshape _ hg).2
    (allEq_z z_zero ag ag) (G.g 0)
  have vb := vals_flat G (Or.inr rfl) (zshape _ hb).1 (zshape _ hb).2
    (allEq_z z_bad ab ab) (G.g 0)
  -- alone: a number at row 9
  have k0 : ∃ (v : ℝ) (rl : List (FP ℝ)), la0[G.k - 1]? = some rl ∧ rl[0]? = some (val v) := by
    obtain ⟨x, y, z, rl, d1, d2, d3⟩ := entry 1 (le_refl _) [goodScan] rfl (by
      intro m hm; rw [List.mem_singleton.mp hm]; exact hg) lo0 la0 (by rw [List.flatten_singleton]; exact e0)
    rw [List.flatMap_singleton] at d3
    rw [vg] at d3
    obtain ⟨z', hz⟩ := clamp_num (ks := G.rows 1) (G.h (G.k - 1))
    rw [hz, linSeg_flat (Or.inl rfl) _ (rows_sorted G 1) _ (by rw [rows_length]; simp) (by
      rw [rows_length]; omega) (fun y hy => (List.mem_replicate.mp hy).2)] at d3
    obtain ⟨v, hv⟩ := lat_zero x y
    exact ⟨v, rl, d1, by rw [d2, d3, hv]⟩
  -- together: no number at row 9
  have k1 : ∃ (rl : List (FP ℝ)), la[G.k - 1]? = some rl ∧ rl[0]? = some bad := by
    obtain ⟨x, y, z, rl, d1, d2, d3⟩ := entry 2 (by norm_num) [goodScan, badScan] rfl (by
      intro m hm
      rcases List.mem_cons.mp hm with h | h
      · rw [h]; exact hg
      · rw [List.mem_singleton.mp h]; exact hb) lo la (by
        rw [List.flatten_cons, List.flatten_singleton]; exact e)
    rw [List.flatMap_cons, List.flatMap_singleton] at d3
    rw [vg, vb] at d3
    have hrs := rows_sorted G 2
    have hrows : G.rows 2 = ([G.h 0] ++ poss G.p G.t) ++ (G.h (G.k - 1) :: (G.t + G.h 0) ::
        ((poss G.p G.t ++ [G.h (G.k - 1)]).map ((G.t : ℝ) + ·))) := by
      simp [ScanGrid.rows, ScanGrid.block, List.range_succ]
    have hlt : G.h (G.k - 1) < G.t + G.h 0 := by
      have := G.hhs 1 0
      rw [Nat.one_mul, Nat.one_mul, Nat.add_zero] at this
      rw [← this]
      exact G.hhm _ _ (by omega)
    have hc : clamp ((G.rows 2).map val) (val (G.h (G.k - 1))) = (val (G.h (G.k - 1)) : FP ℝ) := by
      have hmem : G.h (G.k - 1) ∈ G.rows 2 := by rw [hrows]; simp
      have hne : G.rows 2 ≠ [] := List.ne_nil_of_mem hmem
      exact clamp_inside (List.head?_eq_some_head hne) (List.getLast?_eq_some_getLast hne)
        (head_le hrs (List.head?_eq_some_head hne) hmem) (le_last hrs (List.getLast?_eq_some_getLast hne) hmem)
    rw [hc] at d3
    have hlin : linSeg ((G.rows 2).map val) (List.replicate (G.t + 2) (val 0) ++ List.replicate (G.t + 2) bad)
        (val (G.h (G.k - 1))) = (bad : FP ℝ) := by
      rw [hrows] at hrs ⊢
      rw [show List.replicate (G.t + 2) (val 0 : FP ℝ) ++ List.replicate (G.t + 2) bad
          = List.replicate (G.t + 1) (val 0) ++ (val 0 :: bad :: List.replicate (G.t + 1) bad) by
        rw [List.replicate_succ' (n := G.t + 1), List.append_assoc]; rfl]
      rw [linSeg_drop_prefix _ _ _ _ (by simp [poss]) (by simp) (by simp [poss]) hrs (b := G.h (G.k - 1)) rfl (le_refl _)]
      simp [linSeg, hlt]
    rw [d3, hlin, lat_bad] at d2
    exact ⟨rl, d1, d2⟩
  intro h
  obtain ⟨v, rl, f1, f2⟩ := k0
  obtain ⟨rl', g1, g2⟩ := k1
  simp only at h
  rw [h, List.getElem?_append_left (by rw [s0'.1]; omega), f1] at g1
  injection g1 with g1
  rw [← g1, f2] at g2
  injection g2 with g2
  cases g2

/-- **C16 (negation)**: a spline library that satisfies everything the partial theorems ask of it, and two scans for
which `modis5kmto1km` does not give the stacked results of the scans. -/
theorem C16_negation : ∃ (S : SplLib (FP ℝ)) (lon0 lat0 lon1 lat1 : Mat (FP ℝ)) (r0 r1 r : Mat (FP ℝ) × Mat (FP ℝ)),
    (∀ xs ys x, S 1 xs ys x = linSeg xs ys x) ∧ SplNum S ∧ Interpolating S 3 ∧
    Shape 2 271 lon0 ∧ Shape 2 271 lat0 ∧ Shape 2 271 lon1 ∧ Shape 2 271 lat1 ∧
    modis5kmto1km S lon0 lat0 = .ok r0 ∧ modis5kmto1km S lon1 lat1 = .ok r1 ∧
    modis5kmto1km S (lon0 ++ lon1) (lat0 ++ lat1) = .ok r ∧ r.2 ≠ r0.2 ++ r1.2 := by
  obtain ⟨g, b, r0, r1, r, h1, h2, h3, h4, h5, h6⟩ := preset_not_local (isPreset5 (fun _ => linSeg))
  exact ⟨fun _ => linSeg, g, g, b, b, r0, r1, r, fun _ _ _ => rfl, splNum_linSeg, interpolating_linSeg_three, h1, h1, h2,
    h2, h3, h4, h5, h6⟩

theorem multi_two {F : Mat (FP ℝ) → Mat (FP ℝ) → Except Err (Mat (FP ℝ) × Mat (FP ℝ))} {g b : Mat (FP ℝ)}
    {r0 r1 : Mat (FP ℝ) × Mat (FP ℝ)} (hg : List.length g = 10) (hb : List.length b = 10) (h0 : F g g = .ok r0)
    (h1 : F b b = .ok r1) : multi F (g ++ b) (g ++ b) 10 2 [0, 1] = .ok (r0.1 ++ r1.1, r0.2 ++ r1.2) := by
  have hv : vsplit (g ++ b) [10] = [g, b] := by
    simp only [vsplit, List.length_append, hg, hb, List.cons_append, List.nil_append, List.zipWith_cons_cons,
      List.zipWith_nil_left, slice]
    rw [List.take_append_of_le_length (by omega), List.take_of_length_le (by omega), List.drop_zero,
      List.take_of_length_le (by rw [List.length_append]; omega), ← hg, List.drop_left]
  have := (C19_any_schedule F (g ++ b) (g ++ b) 10 2 [10] (by
    rw [List.length_append, hg, hb]; decide) [0, 1] (by rw [hv]; exact List.Perm.refl _)).1 [r0, r1] (by
      rw [piecesOf, hv]; exact .cons h0 (.cons h1 .nil))
  rw [this]
  simp

theorem shape_two {β : Type} {n w : Nat} {g b : List (List β)} (hg : Shape n w g) (hb : Shape n w b) :
    Shape (n * 2) w (g ++ b) := by
  refine ⟨by rw [List.length_append, hg.1, hb.1]; ring, ?_⟩
  intro r hr
  rcases List.mem_append.mp hr with h | h
  · exact hg.2 r h
  · exact hb.2 r h

/-- **C17 (negation)**: two scans, the second without numbers: with two cores the last line of the first scan is kept,
with one core it is lost. -/
theorem C17_negation_500m : ∃ (S : SplLib (FP ℝ)) (lons lats : Mat (FP ℝ)),
    (∀ xs ys x, S 1 xs ys x = linSeg xs ys x) ∧ SplNum S ∧ Interpolating S 3 ∧
    Shape (10 * 2) 1354 lons ∧ Shape (10 * 2) 1354 lats ∧
    modis1kmto500m S lons lats 2 [0, 1] ≠ modis1kmto500m S lons lats 1 [] := by
  obtain ⟨g, b, r0, r1, r, h1, h2, h3, h4, h5, h6⟩ := preset_not_local (isPreset500 (fun _ => linSeg))
  have hs : Shape (10 * 2) 1354 (g ++ b) := shape_two h1 h2
  refine ⟨fun _ => linSeg, g ++ b, g ++ b, fun _ _ _ => rfl, splNum_linSeg, interpolating_linSeg_three, hs, hs, ?_⟩
  show multi (modis1kmto500mSingle (fun _ => linSeg)) (g ++ b) (g ++ b) 10 2 [0, 1]
    ≠ modis1kmto500mSingle (fun _ => linSeg) (g ++ b) (g ++ b)
  rw [multi_two h1.1 h2.1 h3 h4, h5]
  intro h
  injection h with h
  exact h6 (by rw [← h])

/-- **C17 (negation)**, 250 m -/
theorem C17_negation_250m : ∃ (S : SplLib (FP ℝ)) (lons lats : Mat (FP ℝ)),
    (∀ xs ys x, S 1 xs ys x = linSeg xs ys x) ∧ SplNum S ∧ Interpolating S 3 ∧
    Shape (10 * 2) 1354 lons ∧ Shape (10 * 2) 1354 lats ∧
    modis1kmto250m S lons lats 2 [0, 1] ≠ modis1kmto250m S lons lats 1 [] := by
  obtain ⟨g, b, r0, r1, r, h1, h2, h3, h4, h5, h6⟩ := preset_not_local (isPreset250 (fun _ => linSeg))
  have hs : Shape (10 * 2) 1354 (g ++ b) := shape_two h1 h2
  refine ⟨fun _ => linSeg, g ++ b, g ++ b, fun _ _ _ => rfl, splNum_linSeg, interpolating_linSeg_three, hs, hs, ?_⟩
  show multi (modis1kmto250mSingle (fun _ => linSeg)) (g ++ b) (g ++ b) 10 2 [0, 1]
    ≠ modis1kmto250mSingle (fun _ => linSeg) (g ++ b) (g ++ b)
  rw [multi_two h1.1 h2.1 h3 h4, h5]
  intro h
  injection h with h
  exact h6 (by rw [← h])

end Verif.Props
