import Mathlib.LinearAlgebra.Prod
import Verif.Props.GeoMotion
import Verif.Props.PresetsMore
import Verif.Props.PresetsValue

/-!
# C96 for the presets with splines
-/

set_option linter.unusedSectionVars false

namespace Verif.Presets
open Verif Verif.Interpolator Verif.Spec Verif.Props FP

/-- the cubic spline is a weighted sum of the data, with weights that depend on the positions only -/
def SplSum (S : SplLib (FP ℝ)) : Prop :=
  ∀ ks : List ℝ, ks.Pairwise (· < ·) → 3 < ks.length → ∀ x : ℝ, ∃ w : Nat → ℝ, ∀ ys : List ℝ, ys.length = ks.length →
    S 3 (ks.map val) (ys.map val) (val x) = val (∑ i ∈ Finset.range ks.length, w i * ys.getD i 0)

theorem SplSum.num {S : SplLib (FP ℝ)} (h : SplSum S) : SplNum S := by
  intro ks ys h1 h2 h3 x
  obtain ⟨w, hw⟩ := h ks h1 h3 x
  rw [hw ys h2]
  exact isNum_val _

variable {E : Type} [AddCommGroup E] [Module ℝ E]

/-- coordinates of a list of vectors -/
def coords (ψ : E →ₗ[ℝ] ℝ) (l : List E) : List (FP ℝ) := l.map (fun e => val (ψ e))

/-- the straight line through two vectors -/
noncomputable def lineE (p0 : ℝ) (d0 : E) (p1 : ℝ) (d1 : E) (x : ℝ) : E := d0 + ((x - p0) / (p1 - p0)) • (d1 - d0)

theorem coord_lineE (ψ : E →ₗ[ℝ] ℝ) (p0 : ℝ) (d0 : E) (p1 : ℝ) (d1 : E) (x : ℝ) :
    ψ (lineE p0 d0 p1 d1 x) = lineThrough p0 (ψ d0) p1 (ψ d1) x := by
  unfold lineE lineThrough
  rw [map_add, map_smul, map_sub, smul_eq_mul]
  ring

theorem el_coords (ψ : E →ₗ[ℝ] ℝ) {l : List E} {i : Nat} (h : i < l.length) : el (coords ψ l) i = val (ψ (l.getD i 0)) := by
  simp [el, coords, h]

theorem elEnd_coords (ψ : E →ₗ[ℝ] ℝ) {l : List E} {k : Nat} (hk : 1 ≤ k) (h : k ≤ l.length) :
    elEnd (coords ψ l) k = val (ψ (l.getD (l.length - k) 0)) := by
  have : l.length - k < l.length := by omega
  simp [elEnd, coords, this]

theorem exists_segment (ks : List ℝ) (h2 : 2 ≤ ks.length) (x : ℝ) :
    ∃ i, i + 1 < ks.length ∧ (i = 0 ∨ ks.getD i 0 ≤ x) ∧ (i + 2 = ks.length ∨ x ≤ ks.getD (i + 1) 0) := by
  by_contra hcon
  push Not at hcon
  have key : ∀ i, i + 1 < ks.length → (i = 0 ∨ ks.getD i 0 ≤ x) := by
    intro i
    induction i with
    | zero => intro _; exact Or.inl rfl
    | succ i ih =>
      intro hi
      have := hcon i (by omega) (ih (by omega))
      exact Or.inr this.2.le
  have := hcon (ks.length - 2) (by omega) (key (ks.length - 2) (by omega))
  omega

theorem linSeg_sum (ks : List ℝ) (h : ks.Pairwise (· < ·)) (h2 : 2 ≤ ks.length) (x : ℝ) (l : List E) (hl : l.length = ks.length) :
    ∃ v : E, ∀ ψ : E →ₗ[ℝ] ℝ, linSeg (ks.map val) (coords ψ l) (val x) = val (ψ v) := by
  obtain ⟨i, hi, h1, h3⟩ := exists_segment ks h2 x
  refine ⟨lineE (ks.getD i 0) (l.getD i 0) (ks.getD (i + 1) 0) (l.getD (i + 1) 0) x, fun ψ => ?_⟩
  rw [coord_lineE]
  have := linSeg_segment ks h (l.map ψ) (by rw [List.length_map, hl]) i hi x h1 h3
  rw [List.map_map] at this
  refine (this : linSeg (ks.map val) (coords ψ l) (val x) = _).trans ?_
  have hm : ∀ j, (l.map ψ).getD j 0 = ψ (l.getD j 0) := by
    intro j
    by_cases hj : j < l.length
    · simp [hj]
    · simp [hj]
  rw [hm, hm]

theorem spl_sum {S : SplLib (FP ℝ)} (hS : SplSum S) (ks : List ℝ) (h : ks.Pairwise (· < ·)) (h3 : 3 < ks.length) (x : ℝ) (l : List E)
    (hl : l.length = ks.length) :
    ∃ v : E, ∀ ψ : E →ₗ[ℝ] ℝ, S 3 (ks.map val) (coords ψ l) (val x) = val (ψ v) := by
  obtain ⟨w, hw⟩ := hS ks h h3 x
  refine ⟨∑ i ∈ Finset.range ks.length, w i • l.getD i 0, fun ψ => ?_⟩
  have := hw (l.map ψ) (by rw [List.length_map, hl])
  rw [List.map_map] at this
  refine (this : S 3 (ks.map val) (coords ψ l) (val x) = _).trans ?_
  congr 1
  rw [map_sum]
  refine Finset.sum_congr rfl (fun i hi => ?_)
  have hi' : i < l.length := by rw [hl]; exact Finset.mem_range.1 hi
  simp [hi']

variable (G : ScanGrid ℝ)

theorem colFill_coords (r : List E) (hr : r.length = G.n) : ∃ r' : List E, ∀ ψ : E →ₗ[ℝ] ℝ, G.colFill (coords ψ r) = coords ψ r' := by
  have hn := G.hn
  have hN := G.hN
  refine ⟨withEdges (needFirst (G.state 0 [])) (needLast (G.state 0 []))
    (lineE (G.q 0) (r.getD 0 0) (G.q 1) (r.getD 1 0) (G.g 0))
    (lineE (G.q (G.n - 2)) (r.getD (G.n - 2) 0) (G.q (G.n - 1)) (r.getD (G.n - 1) 0) (G.g (G.N - 1))) r, fun ψ => ?_⟩
  have hq : ∀ i, i < G.n → el (G.state 0 []).colIdx i = val (G.q i) := fun i hi => poss_el G.q hi
  have hqe : ∀ k, 1 ≤ k → k ≤ G.n → elEnd (G.state 0 []).colIdx k = val (G.q (G.n - k)) := by
    intro k h1 h2
    show el _ _ = _
    rw [show ((G.state 0 []).colIdx).length = G.n by simp [ScanGrid.state, poss]]
    exact hq _ (by omega)
  have hg0 : el (G.state 0 []).hcolIdx 0 = val (G.g 0) := poss_el G.g (by omega)
  have hg1 : elEnd (G.state 0 []).hcolIdx 1 = val (G.g (G.N - 1)) := by
    show el _ _ = _
    rw [show ((G.state 0 []).hcolIdx).length = G.N by simp [ScanGrid.state, poss]]
    exact poss_el G.g (by omega)
  unfold ScanGrid.colFill fillRow
  rw [hq 0 (by omega), hq 1 (by omega), hqe 2 (by omega) (by omega), hqe 1 (by omega) (by omega), hg0, hg1,
    el_coords ψ (by omega), el_coords ψ (by omega), elEnd_coords ψ (by omega) (by omega), elEnd_coords ψ (by omega) (by omega),
    extrapolated_val (ne_of_lt (G.hqm _ _ (by omega))), extrapolated_val (ne_of_lt (G.hqm _ _ (by omega))), hr]
  unfold coords withEdges
  cases needFirst (G.state 0 []) <;> cases needLast (G.state 0 []) <;> simp [coord_lineE]

theorem scanFill_coords (L : List (List E)) (hL : L.length = G.t) (hw : ∀ r ∈ L, r.length = G.n) :
    ∃ L' : List (List E), L'.length = G.t + 2 ∧ (∀ r ∈ L', r.length = G.n) ∧
      ∀ ψ : E →ₗ[ℝ] ℝ, G.scanFill (L.map (coords ψ)) = L'.map (coords ψ) := by
  have ht := G.ht
  have hrl : ∀ i < G.t, (L.getD i []).length = G.n := by
    intro i hi
    rw [getD_of_lt _ _ (by omega)]; exact hw _ (List.getElem_mem _)
  refine ⟨[List.zipWith (fun a b => lineE (G.p 0) a (G.p 1) b (G.h 0)) (L.getD 0 []) (L.getD 1 [])] ++ L ++
    [List.zipWith (fun a b => lineE (G.p (G.t - 2)) a (G.p (G.t - 1)) b (G.h (G.k - 1))) (L.getD (G.t - 2) []) (L.getD (G.t - 1) [])],
    by simp [hL], ?_, fun ψ => ?_⟩
  · intro r hr
    simp only [List.mem_append, List.mem_singleton] at hr
    rcases hr with (rfl | h) | rfl
    · rw [List.length_zipWith, hrl 0 (by omega), hrl 1 (by omega), Nat.min_self]
    · exact hw r h
    · rw [List.length_zipWith, hrl _ (by omega), hrl _ (by omega), Nat.min_self]
  · have hrow : ∀ i < G.t, row (L.map (coords ψ)) i = coords ψ (L.getD i []) := by
      intro i hi
      simp [row, hL, hi]
    have hsel0 : ∀ j < G.t, (List.range G.t).getD j 0 = j := by
      intro j hj; simp [hj]
    have hz : ∀ (p0 p1 x : ℝ), p0 ≠ p1 → ∀ a b : List E, List.zipWith (fun a b => extrapolated (val p0) (val p1) a b (val x))
        (coords ψ a) (coords ψ b) = coords ψ (List.zipWith (fun a b => lineE p0 a p1 b x) a b) := by
      intro p0 p1 x hp a b
      unfold coords
      rw [List.zipWith_map, List.map_zipWith]
      congr 1
      funext a b
      rw [extrapolated_val hp, coord_lineE]
    unfold ScanGrid.scanFill bracketed
    simp only [List.length_range, hsel0 0 (by omega), hsel0 1 (by omega), hsel0 (G.t - 2) (by omega),
      hsel0 (G.t - 1) (by omega), List.map_append, List.map_cons, List.map_nil,
      poss_el G.p (show 0 < G.t by omega), poss_el G.p (show 1 < G.t by omega),
      poss_el G.p (show G.t - 2 < G.t by omega), poss_el G.p (show G.t - 1 < G.t by omega)]
    rw [hrow 0 (by omega), hrow 1 (by omega), hrow (G.t - 2) (by omega), hrow (G.t - 1) (by omega),
      hz _ _ _ (ne_of_lt (G.pmono (by omega))), hz _ _ _ (ne_of_lt (G.pmono (by omega)))]
    congr 2
    rw [← hL]
    have := range_map_getD (L.map (coords ψ)) []
    rw [List.length_map] at this
    exact this

/-- a pixel of a scan is the same linear combination of the data, for every coordinate -/
theorem scanOut_sum {S : SplLib (FP ℝ)} (hS : SplSum S) (L : List (List E)) (hL : L.length = G.t) (hw : ∀ r ∈ L, r.length = G.n)
    {a u : Nat} (ha : a < G.k) (hu : u < G.N) :
    ∃ v : E, ∀ ψ : E →ₗ[ℝ] ℝ, el (row (G.scanOut S (L.map (coords ψ))) a) u = val (ψ v) := by
  have hn := G.hn
  have ht := G.ht
  obtain ⟨z, hz⟩ := clamp_num (ks := G.cols) (G.g u)
  obtain ⟨L', l1, l2, l3⟩ := scanFill_coords G L hL hw
  have hcl := cols_length G
  have hrow : ∀ r : List E, r.length = G.n → ∃ v : E, ∀ ψ : E →ₗ[ℝ] ℝ,
      S 3 (G.cols.map val) (G.colFill (coords ψ r)) (clamp (G.cols.map val) (val (G.g u))) = val (ψ v) := by
    intro r hr
    obtain ⟨r', hr'⟩ := colFill_coords G r hr
    have hlen : r'.length = G.cols.length := by
      have h1 := congrArg List.length (hr' 0)
      rw [colFill_width G (by simp [coords, hr])] at h1
      simpa [coords] using h1.symm
    obtain ⟨v, hv⟩ := spl_sum hS G.cols (cols_sorted G) (by omega) z r' hlen
    exact ⟨v, fun ψ => by rw [hr' ψ, hz, hv ψ]⟩
  choose! f hf using hrow
  obtain ⟨v, hv⟩ := linSeg_sum G.block (block_sorted G) (by simp [ScanGrid.block]) (G.h a) (L'.map f)
    (by simp [ScanGrid.block, poss, l1])
  refine ⟨v, fun ψ => ?_⟩
  have e1 : el (row (G.scanOut S (L.map (coords ψ))) a) u = linSeg (G.block.map val) (((G.scanFill (L.map (coords ψ))).map G.colFill).map
      (fun r => S 3 (G.cols.map val) r (clamp (G.cols.map val) (val (G.g u))))) (val (G.h a)) := by
    simp [row, el, ScanGrid.scanOut, poss, ha, hu]
  rw [e1, ← hv ψ, l3 ψ, List.map_map, List.map_map]
  congr 1
  unfold coords
  rw [List.map_map]
  refine List.map_congr_left (fun r hr => ?_)
  exact hf r (l2 r hr) ψ

end Verif.Presets

namespace Verif.Props
open Verif Verif.Multi Verif.Interpolator Verif.Spec Verif.Presets FP

/-- the tie points of scan `c` -/
noncomputable def scanPts (t n : Nat) (lons lats : List (List ℝ)) (c : Nat) : List (List (ℝ × ℝ × ℝ)) :=
  (List.range t).map (fun i => (List.range n).map (fun b => tieXyz lons lats (c * t + i) b))

/-- the three coordinates -/
def cx : (ℝ × ℝ × ℝ) →ₗ[ℝ] ℝ := LinearMap.fst ℝ ℝ (ℝ × ℝ)
def cy : (ℝ × ℝ × ℝ) →ₗ[ℝ] ℝ := LinearMap.fst ℝ ℝ ℝ ∘ₗ LinearMap.snd ℝ ℝ (ℝ × ℝ)
def cz : (ℝ × ℝ × ℝ) →ₗ[ℝ] ℝ := LinearMap.snd ℝ ℝ ℝ ∘ₗ LinearMap.snd ℝ ℝ (ℝ × ℝ)

/-- every pixel of a preset, from the coordinates of the tie points of its scan -/
theorem preset_pixel {G : ScanGrid ℝ} {S : SplLib (FP ℝ)} {F} (hF : IsPreset G S F)
    (hS1 : ∀ xs ys x, S 1 xs ys x = linSeg xs ys x) (hS3 : SplNum S) {s : Nat} (hs : 1 ≤ s)
    (lons lats : List (List ℝ)) (h1 : Shape (s * G.t) G.n lons) (h2 : Shape (s * G.t) G.n lats) :
    ∃ lo la, F (numMat lons) (numMat lats) = .ok (lo, la) ∧
      ∀ c < s, ∀ a < G.k, ∀ u < G.N,
        (el (row lo (c * G.k + a)) u, el (row la (c * G.k + a)) u)
          = Geo.xyz2lonlat Geo.earthRadius Geo.defaultThr true
            (el (row (G.scanOut S ((scanPts G.t G.n lons lats c).map (coords cx))) a) u,
             el (row (G.scanOut S ((scanPts G.t G.n lons lats c).map (coords cy))) a) u,
             el (row (G.scanOut S ((scanPts G.t G.n lons lats c).map (coords cz))) a) u) := by
  have hR : (Geo.earthRadius : FP ℝ) = val 6370997 := by
    simp only [Geo.earthRadius, lit_eq]; norm_num
  rw [hF.eq s hs _ _ (by rw [numMat, List.length_map]; exact h1.1)]
  obtain ⟨lonS, a1, a2, a3⟩ := exists_scans G.t s lons h1.1
  obtain ⟨latS, b1, b2, b3⟩ := exists_scans G.t s lats h2.1
  have hfl : ∀ m : List (List (List ℝ)), numMat m.flatten = (m.map numMat).flatten := by
    intro m
    unfold numMat
    rw [List.map_flatten]
  have w1 : ∀ m ∈ lonS, ∀ r ∈ m, r.length = G.n := fun m hm r hr => h1.2 r (by
    rw [← a3]; exact List.mem_flatten.mpr ⟨m, hm, hr⟩)
  have w2 : ∀ m ∈ latS, ∀ r ∈ m, r.length = G.n := fun m hm r hr => h2.2 r (by
    rw [← b3]; exact List.mem_flatten.mpr ⟨m, hm, hr⟩)
  have hnum : ∀ l : List (List (List ℝ)), ∀ m ∈ l.map numMat, NumMat (K := ℝ) m := by
    intro l m hm r hr v hv
    obtain ⟨m', _, rfl⟩ := List.mem_map.mp hm
    obtain ⟨r', _, rfl⟩ := List.mem_map.mp hr
    obtain ⟨x, _, rfl⟩ := List.mem_map.mp hv
    exact isNum_val _
  have hshape : SameShape G.t G.n (lonS.map numMat) (latS.map numMat) := by
    refine ⟨by simp [a1, b1], ?_, ?_⟩
    · intro m hm
      rcases List.mem_append.mp hm with hm | hm <;> obtain ⟨m', hm', rfl⟩ := List.mem_map.mp hm
      · rw [numMat, List.length_map]; exact a2 m' hm'
      · rw [numMat, List.length_map]; exact b2 m' hm'
    · intro m hm r hr
      rcases List.mem_append.mp hm with hm | hm <;> obtain ⟨m', hm', rfl⟩ := List.mem_map.mp hm <;>
        obtain ⟨r', hr', rfl⟩ := List.mem_map.mp hr
      · rw [List.length_map]; exact w1 m' hm' r' hr'
      · rw [List.length_map]; exact w2 m' hm' r' hr'
  rw [← a3, ← b3, hfl, hfl, geo_core G S hS1 hS3 s _ _ hs (by simp [a1]) hshape (hnum _) (hnum _)]
  -- the three arrays of numbers, scan by scan
  let D (f : ℝ × ℝ × ℝ → ℝ) : List (List (List ℝ)) := List.zipWith (List.zipWith (List.zipWith (fun x y =>
    f (Spec.spherePoint 6370997 x y)))) lonS latS
  have hD : ∀ (g : FP ℝ × FP ℝ × FP ℝ → FP ℝ) (f : ℝ × ℝ × ℝ → ℝ),
      (∀ x y, g (Geo.lonlat2xyz Geo.earthRadius (val x) (val y)) = val (f (Spec.spherePoint 6370997 x y))) →
      List.zipWith (fun lo la => List.zipWith (List.zipWith (fun lon lat => g (Geo.lonlat2xyz Geo.earthRadius lon lat))) lo la)
        (lonS.map numMat) (latS.map numMat) = (D f).map numMat := by
    intro g f hgf
    show _ = (List.zipWith _ lonS latS).map numMat
    rw [List.zipWith_map, List.map_zipWith]
    congr 1
    funext A B
    unfold numMat
    rw [List.zipWith_map, List.map_zipWith]
    congr 1
    funext r r'
    rw [List.zipWith_map, List.map_zipWith]
    congr 1
    funext x y
    exact hgf x y
  have hv : ∀ x y : ℝ, Geo.lonlat2xyz (Geo.earthRadius : FP ℝ) (val x) (val y)
      = (val (Spec.spherePoint 6370997 x y).1, val (Spec.spherePoint 6370997 x y).2.1,
          val (Spec.spherePoint 6370997 x y).2.2) := by
    intro x y
    rw [hR]; exact Geo.lonlat2xyz_val 6370997 x y
  have hT : tieScans (lonS.map numMat) (latS.map numMat) = [(D (·.1)).map numMat, (D (·.2.1)).map numMat,
      (D (·.2.2)).map numMat] := by
    rw [← hD (·.1) (·.1) (fun x y => by rw [hv]), ← hD (·.2.1) (·.2.1) (fun x y => by rw [hv]),
      ← hD (·.2.2) (·.2.2) (fun x y => by rw [hv])]
    rfl
  rw [hT]
  have hDl : ∀ f, (D f).length = s := by intro f; simp [D, a1, b1]
  have hDm : ∀ f, ∀ c < s, (D f).getD c [] = List.zipWith (List.zipWith (fun x y => f (Spec.spherePoint 6370997 x y)))
      (lonS.getD c []) (latS.getD c []) := by
    intro f c hc
    exact getD_zipWith _ (by rw [a1]; exact hc) (by rw [b1]; exact hc) _ [] []
  have la : ∀ c < s, (lonS.getD c []).length = G.t ∧ ∀ r ∈ lonS.getD c [], r.length = G.n := by
    intro c hc
    rw [getD_of_lt _ _ (by omega)]
    exact ⟨a2 _ (List.getElem_mem _), w1 _ (List.getElem_mem _)⟩
  have lb : ∀ c < s, (latS.getD c []).length = G.t ∧ ∀ r ∈ latS.getD c [], r.length = G.n := by
    intro c hc
    rw [getD_of_lt _ _ (by omega)]
    exact ⟨b2 _ (List.getElem_mem _), w2 _ (List.getElem_mem _)⟩
  have hso : ∀ m : Mat (FP ℝ), Shape G.k G.N (G.scanOut S m) := by
    intro m
    refine ⟨by simp [ScanGrid.scanOut, poss], ?_⟩
    intro r hr
    obtain ⟨x, _, rfl⟩ := List.mem_map.mp hr
    simp [poss]
  have hsh : ∀ f, Shape (s * G.k) G.N (((D f).map numMat).flatMap (G.scanOut S)) := by
    intro f
    constructor
    · rw [List.length_flatMap]
      have : ((D f).map numMat).map (fun m => (G.scanOut S m).length) = List.replicate s G.k := by
        rw [List.eq_replicate_iff]
        refine ⟨by simp [hDl], ?_⟩
        intro x hx
        obtain ⟨m, _, rfl⟩ := List.mem_map.mp hx
        exact (hso m).1
      rw [this, List.sum_replicate]; rfl
    · intro r hr
      obtain ⟨m, _, hm⟩ := List.mem_flatMap.mp hr
      exact (hso m).2 r hm
  obtain ⟨lo, la', e, hpix⟩ := toLonLat_pixel (hsh (·.1)) (hsh (·.2.1)) (hsh (·.2.2))
  refine ⟨lo, la', e, ?_⟩
  intro c hc a ha u hu
  have hi : c * G.k + a < s * G.k := by
    have : (c + 1) * G.k ≤ s * G.k := Nat.mul_le_mul_right _ hc
    rw [Nat.add_mul] at this; omega
  rw [hpix _ hi u hu]
  have hval : ∀ (f : ℝ × ℝ × ℝ → ℝ) (ψ : (ℝ × ℝ × ℝ) →ₗ[ℝ] ℝ), (∀ e, ψ e = f e) →
      el (row (((D f).map numMat).flatMap (G.scanOut S)) (c * G.k + a)) u
      = el (row (G.scanOut S ((scanPts G.t G.n lons lats c).map (coords ψ))) a) u := by
    intro f ψ hψ
    have e1 : row (((D f).map numMat).flatMap (G.scanOut S)) (c * G.k + a)
        = row (G.scanOut S (numMat ((D f).getD c []))) a := by
      unfold row
      rw [List.flatMap_def, getD_flatten (t := G.k) (by
        intro m hm
        obtain ⟨m', _, rfl⟩ := List.mem_map.mp hm
        exact (hso m').1) [] (by simp [hDl, hc]) ha, List.map_map, getD_map_lt _ (by rw [hDl]; exact hc) [] []]
      rfl
    rw [e1, hDm f c hc]
    congr 4
    have ev : ∀ i < G.t, ∀ b < G.n, tieXyz lons lats (c * G.t + i) b
        = Spec.spherePoint 6370997 (((lonS.getD c []).getD i []).getD b 0) (((latS.getD c []).getD i []).getD b 0) := by
      intro i hi b hb
      unfold tieXyz
      rw [← a3, ← b3, getD_flatten a2 [] (by omega) hi, getD_flatten b2 [] (by omega) hi]
    obtain ⟨p1, p2⟩ := la c hc
    obtain ⟨q1, q2⟩ := lb c hc
    generalize lonS.getD c [] = A at p1 p2 ev ⊢
    generalize latS.getD c [] = B at q1 q2 ev ⊢
    unfold numMat scanPts
    rw [List.map_map, List.map_zipWith]
    refine List.ext_getElem (by simp [p1, q1]) ?_
    intro i hi1 hi2
    have hi : i < G.t := by simpa using hi2
    have k1 : i < A.length := by rw [p1]; exact hi
    have k2 : i < B.length := by rw [q1]; exact hi
    have l1 := p2 _ (List.getElem_mem k1)
    have l2 := q2 _ (List.getElem_mem k2)
    simp only [List.getElem_zipWith, List.getElem_map, List.getElem_range, Function.comp, coords, List.map_map, List.map_zipWith]
    refine List.ext_getElem (by simp [l1, l2]) ?_
    intro b hb1 hb2
    have hb : b < G.n := by simpa using hb2
    simp only [List.getElem_zipWith, List.getElem_map, List.getElem_range, Function.comp, hψ]
    rw [ev i hi b hb, getD_of_lt A _ k1, getD_of_lt B _ k2, getD_of_lt A[i] _ (by rw [l1]; exact hb),
      getD_of_lt B[i] _ (by rw [l2]; exact hb)]
  rw [hval (·.1) cx (fun _ => rfl), hval (·.2.1) cy (fun _ => rfl), hval (·.2.2) cz (fun _ => rfl), a3, b3]

/-- a motion is linear -/
noncomputable def Motion.lin : Motion → (ℝ × ℝ × ℝ) →ₗ[ℝ] (ℝ × ℝ × ℝ)
  | .turn d => LinearMap.prod (Real.cos (rad d) • cx - Real.sin (rad d) • cy) (LinearMap.prod (Real.sin (rad d) • cx + Real.cos (rad d) • cy) cz)
  | .eastWest => LinearMap.prod cx (LinearMap.prod (-cy) cz)
  | .northSouth => LinearMap.prod cx (LinearMap.prod cy (-cz))

theorem lin_point (m : Motion) (p : ℝ × ℝ × ℝ) : Motion.lin m p = m.point p := by
  obtain ⟨x, y, z⟩ := p
  cases m <;> simp [Motion.lin, Motion.point, cx, cy, cz, mul_comm]

/-- **C96 (presets)**: every pixel of a preset moves with its ties. -/
theorem preset_motion {G : ScanGrid ℝ} {S : SplLib (FP ℝ)} {F} (hF : IsPreset G S F)
    (hS1 : ∀ xs ys x, S 1 xs ys x = linSeg xs ys x) (hS : SplSum S) (m : Motion) {s : Nat} (hs : 1 ≤ s)
    (lons lats lons' lats' : List (List ℝ)) (h1 : Shape (s * G.t) G.n lons) (h2 : Shape (s * G.t) G.n lats)
    (h1' : Shape (s * G.t) G.n lons') (h2' : Shape (s * G.t) G.n lats') (hm : Motion.Lists m (s * G.t) G.n lons lats lons' lats') :
    ∃ lo la lo' la', F (numMat lons) (numMat lats) = .ok (lo, la) ∧ F (numMat lons') (numMat lats') = .ok (lo', la') ∧
      ∀ i < s * G.k, ∀ u < G.N, m.Reported (el (row lo i) u, el (row la i) u) (el (row lo' i) u, el (row la' i) u) := by
  obtain ⟨lo, la, e1, e2⟩ := preset_pixel hF hS1 hS.num hs lons lats h1 h2
  obtain ⟨lo', la', f1, f2⟩ := preset_pixel hF hS1 hS.num hs lons' lats' h1' h2'
  refine ⟨lo, la, lo', la', e1, f1, ?_⟩
  intro i hi u hu
  have hk : 0 < G.k := G.hk
  have hc : i / G.k < s := by rw [Nat.div_lt_iff_lt_mul hk]; exact hi
  have ha := Nat.mod_lt i hk
  have hsplit : i / G.k * G.k + i % G.k = i := Nat.div_add_mod' _ _
  have g := e2 _ hc _ ha u hu
  have g' := f2 _ hc _ ha u hu
  rw [hsplit] at g g'
  rw [g, g']
  have hL : ∀ lons lats c, (scanPts G.t G.n lons lats c).length = G.t := by intros; simp [scanPts]
  have hW : ∀ lons lats c, ∀ r ∈ scanPts G.t G.n lons lats c, r.length = G.n := by
    intro lons lats c r hr
    obtain ⟨i, _, rfl⟩ := List.mem_map.1 hr
    simp
  have hpts : ∀ ψ : (ℝ × ℝ × ℝ) →ₗ[ℝ] ℝ, (scanPts G.t G.n lons' lats' (i / G.k)).map (coords ψ)
      = (scanPts G.t G.n lons lats (i / G.k)).map (coords (ψ ∘ₗ Motion.lin m)) := by
    intro ψ
    unfold scanPts
    rw [List.map_map, List.map_map]
    refine List.map_congr_left (fun a ha => ?_)
    simp only [Function.comp, coords, List.map_map]
    refine List.map_congr_left (fun b hb => ?_)
    have hia : i / G.k * G.t + a < s * G.t := by
      have : (i / G.k + 1) * G.t ≤ s * G.t := Nat.mul_le_mul_right _ hc
      rw [Nat.add_mul] at this
      have := List.mem_range.1 ha
      omega
    have := motion_tie m 6370997 _ _ _ _ (hm _ hia b (List.mem_range.1 hb))
    simp only [Function.comp, LinearMap.comp_apply, lin_point]
    congr 2
  obtain ⟨v, hv⟩ := scanOut_sum G hS (scanPts G.t G.n lons lats (i / G.k)) (hL _ _ _) (hW _ _ _) ha hu
  simp only [hpts, hv, earth_val, Modis.defaultThr_val]
  simp only [LinearMap.comp_apply, lin_point]
  exact C96_convert m 6370997 (4 / 5) true v (by norm_num)

theorem shape_numMat {a b : Nat} {M : List (List ℝ)} (h : Shape a b M) : Shape a b (numMat M) := by
  refine ⟨by rw [numMat, List.length_map]; exact h.1, ?_⟩
  intro r hr
  obtain ⟨r', hr', rfl⟩ := List.mem_map.1 hr
  rw [List.length_map]; exact h.2 r' hr'

theorem numMat_num (M : List (List ℝ)) : NumMat (numMat M) := by
  intro r hr v hv
  obtain ⟨r', _, rfl⟩ := List.mem_map.mp hr
  obtain ⟨x, _, rfl⟩ := List.mem_map.mp hv
  exact isNum_val _

/-- **C96 (5 km to 1 km)** -/
theorem C96_modis5kmto1km (S : SplLib (FP ℝ)) (hS1 : ∀ xs ys x, S 1 xs ys x = linSeg xs ys x) (hS : SplSum S) (m : Motion) (s : Nat)
    (hs : 1 ≤ s) (lons lats lons' lats' : List (List ℝ)) (h1 : Shape (2 * s) 271 lons) (h2 : Shape (2 * s) 271 lats)
    (h1' : Shape (2 * s) 271 lons') (h2' : Shape (2 * s) 271 lats') (hm : m.Lists (2 * s) 271 lons lats lons' lats') :
    ∃ lo la lo' la', modis5kmto1km S (numMat lons) (numMat lats) = .ok (lo, la) ∧
      modis5kmto1km S (numMat lons') (numMat lats') = .ok (lo', la') ∧
      ∀ i < 10 * s, ∀ u < 1354, m.Reported (el (row lo i) u, el (row la i) u) (el (row lo' i) u, el (row la' i) u) := by
  rw [Nat.mul_comm 2 s] at h1 h2 h1' h2' hm
  rw [Nat.mul_comm 10 s]
  exact preset_motion (isPreset5 S) hS1 hS m hs lons lats lons' lats' h1 h2 h1' h2' hm

/-- a number of cores for `n` rows, and the order in which the workers finish -/
structure Workers (n : Nat) where
  cores : Nat
  sched : List Nat
  splits : List Nat
  split : sceneSplits n 10 (max 1 cores) = .ok splits
  perm : sched.Perm (List.range (splits.length + 1))

/-- **C96 (1 km to 500m)**, on any numbers of cores and in any order of the workers. -/
theorem C96_modis1kmto500m (S : SplLib (FP ℝ)) (hS1 : ∀ xs ys x, S 1 xs ys x = linSeg xs ys x) (hS : SplSum S) (m : Motion) (s : Nat)
    (hs : 1 ≤ s) (lons lats lons' lats' : List (List ℝ)) (h1 : Shape (10 * s) 1354 lons) (h2 : Shape (10 * s) 1354 lats)
    (h1' : Shape (10 * s) 1354 lons') (h2' : Shape (10 * s) 1354 lats') (hm : m.Lists (10 * s) 1354 lons lats lons' lats')
    (run run' : Workers (10 * s)) :
    ∃ lo la lo' la', modis1kmto500m S (numMat lons) (numMat lats) run.cores run.sched = .ok (lo, la) ∧
      modis1kmto500m S (numMat lons') (numMat lats') run'.cores run'.sched = .ok (lo', la') ∧
      ∀ i < 20 * s, ∀ u < 2708, m.Reported (el (row lo i) u, el (row la i) u) (el (row lo' i) u, el (row la' i) u) := by
  have one : ∀ (lons lats : List (List ℝ)), Shape (10 * s) 1354 lons → Shape (10 * s) 1354 lats → ∀ run : Workers (10 * s),
      modis1kmto500m S (numMat lons) (numMat lats) run.cores run.sched = modis1kmto500mSingle S (numMat lons) (numMat lats) := by
    intro lons lats g1 g2 run
    by_cases hc : 1 < run.cores
    · rw [C17_modis1kmto500m_partial S hS1 hS.num s hs _ _ ⟨shape_numMat g1, numMat_num _⟩ ⟨shape_numMat g2, numMat_num _⟩ _ hc _ run.splits
        (by rw [← run.split, Nat.max_eq_right (by omega)]) run.perm]
      rfl
    · unfold modis1kmto500m
      rw [if_neg hc]
  rw [one _ _ h1 h2, one _ _ h1' h2']
  rw [Nat.mul_comm 10 s] at h1 h2 h1' h2' hm
  rw [Nat.mul_comm 20 s]
  exact preset_motion (isPreset500 S) hS1 hS m hs lons lats lons' lats' h1 h2 h1' h2' hm

/-- **C96 (1 km to 250m)**, on any numbers of cores and in any order of the workers. -/
theorem C96_modis1kmto250m (S : SplLib (FP ℝ)) (hS1 : ∀ xs ys x, S 1 xs ys x = linSeg xs ys x) (hS : SplSum S) (m : Motion) (s : Nat)
    (hs : 1 ≤ s) (lons lats lons' lats' : List (List ℝ)) (h1 : Shape (10 * s) 1354 lons) (h2 : Shape (10 * s) 1354 lats)
    (h1' : Shape (10 * s) 1354 lons') (h2' : Shape (10 * s) 1354 lats') (hm : m.Lists (10 * s) 1354 lons lats lons' lats')
    (run run' : Workers (10 * s)) :
    ∃ lo la lo' la', modis1kmto250m S (numMat lons) (numMat lats) run.cores run.sched = .ok (lo, la) ∧
      modis1kmto250m S (numMat lons') (numMat lats') run'.cores run'.sched = .ok (lo', la') ∧
      ∀ i < 40 * s, ∀ u < 5416, m.Reported (el (row lo i) u, el (row la i) u) (el (row lo' i) u, el (row la' i) u) := by
  have one : ∀ (lons lats : List (List ℝ)), Shape (10 * s) 1354 lons → Shape (10 * s) 1354 lats → ∀ run : Workers (10 * s),
      modis1kmto250m S (numMat lons) (numMat lats) run.cores run.sched = modis1kmto250mSingle S (numMat lons) (numMat lats) := by
    intro lons lats g1 g2 run
    by_cases hc : 1 < run.cores
    · rw [C17_modis1kmto250m_partial S hS1 hS.num s hs _ _ ⟨shape_numMat g1, numMat_num _⟩ ⟨shape_numMat g2, numMat_num _⟩ _ hc _ run.splits
        (by rw [← run.split, Nat.max_eq_right (by omega)]) run.perm]
      rfl
    · unfold modis1kmto250m
      rw [if_neg hc]
  rw [one _ _ h1 h2, one _ _ h1' h2']
  rw [Nat.mul_comm 10 s] at h1 h2 h1' h2' hm
  rw [Nat.mul_comm 40 s]
  exact preset_motion (isPreset250 S) hS1 hS m hs lons lats lons' lats' h1 h2 h1' h2' hm

/-- **C96 (METOP)** -/
theorem C96_metop20kmto1km (S : SplLib (FP ℝ)) (hS : SplSum S) (m : Motion) (n : Nat) (lons lats lons' lats' : List (List ℝ))
    (h1 : Shape n 105 lons) (h2 : Shape n 105 lats) (h1' : Shape n 105 lons') (h2' : Shape n 105 lats')
    (hm : m.Lists n 105 lons lats lons' lats') :
    ∃ lo la lo' la', metop20kmto1km S (numMat lons) (numMat lats) = .ok (lo, la) ∧
      metop20kmto1km S (numMat lons') (numMat lats') = .ok (lo', la') ∧
      ∀ i < n, ∀ u < 2048, m.Reported (el (row lo i) u, el (row la i) u) (el (row lo' i) u, el (row la' i) u) := by
  have run : ∀ lons lats : List (List ℝ), Shape n 105 lons → Shape n 105 lats → metop20kmto1km S (numMat lons) (numMat lats)
      = .ok (List.zipWith (metopLine S (·.1)) (numMat lons) (numMat lats), List.zipWith (metopLine S (·.2)) (numMat lons) (numMat lats)) := by
    intro lons lats g1 g2
    exact metop_eq S _ _ (by rw [(shape_numMat g1).1, (shape_numMat g2).1]) (shape_numMat g1).2 (shape_numMat g2).2
  refine ⟨_, _, _, _, run _ _ h1 h2, run _ _ h1' h2', ?_⟩
  intro i hi u hu
  have huf : u < fineCols.length := by rw [fineCols_length]; exact hu
  have line : ∀ (lons lats : List (List ℝ)), Shape n 105 lons → Shape n 105 lats →
      ∀ g : FP ℝ × FP ℝ → FP ℝ, el (row (List.zipWith (metopLine S g) (numMat lons) (numMat lats)) i) u
          = g (Geo.xyz2lonlat Geo.earthRadius Geo.defaultThr true
            (S 3 (metopCols.map val) (coords cx ((List.range 105).map (tieXyz lons lats i))) (val fineCols[u]),
            S 3 (metopCols.map val) (coords cy ((List.range 105).map (tieXyz lons lats i))) (val fineCols[u]),
            S 3 (metopCols.map val) (coords cz ((List.range 105).map (tieXyz lons lats i))) (val fineCols[u]))) := by
    intro lons lats g1 g2 g
    have k1 : i < lons.length := by rw [g1.1]; exact hi
    have k2 : i < lats.length := by rw [g2.1]; exact hi
    have l1 := g1.2 _ (List.getElem_mem k1)
    have l2 := g2.2 _ (List.getElem_mem k2)
    have hrow : row (List.zipWith (metopLine S g) (numMat lons) (numMat lats)) i = metopLine S g (lons[i].map val) (lats[i].map val) := by
      simp [row, numMat, k1, k2]
    have hxyz : ∀ (f : FP ℝ × FP ℝ × FP ℝ → FP ℝ) (ψ : (ℝ × ℝ × ℝ) →ₗ[ℝ] ℝ),
        (∀ p : ℝ × ℝ × ℝ, f (val p.1, val p.2.1, val p.2.2) = val (ψ p)) →
        metopXyz S f (lons[i].map val) (lats[i].map val) fineCols[u]
          = S 3 (metopCols.map val) (coords ψ ((List.range 105).map (tieXyz lons lats i))) (val fineCols[u]) := by
      intro f ψ hf
      unfold metopXyz
      congr 1
      refine List.ext_getElem (by simp [coords, l1, l2]) ?_
      intro b hb1 hb2
      have hb : b < 105 := by simpa [coords] using hb2
      simp only [coords, List.getElem_zipWith, List.getElem_map, List.getElem_range, tieXyz]
      rw [getD_of_lt lons _ k1, getD_of_lt lats _ k2, getD_of_lt lons[i] _ (by omega),
        getD_of_lt lats[i] _ (by omega)]
      generalize lons[i][b] = x
      generalize lats[i][b] = y
      rw [show Geo.lonlat2xyz Geo.earthRadius (val x) (val y) = Geo.lonlat2xyz (val (6370997 : ℝ)) (val x) (val y) from by rw [earth_val],
        Geo.lonlat2xyz_val]
      exact hf (spherePoint 6370997 x y)
    rw [hrow, metopLine]
    simp only [el, List.getD_eq_getElem?_getD, List.getElem?_map, List.getElem?_eq_getElem huf, Option.map_some, Option.getD_some]
    rw [hxyz (·.1) cx (fun _ => rfl), hxyz (·.2.1) cy (fun _ => rfl), hxyz (·.2.2) cz (fun _ => rfl)]
  rw [line _ _ h1 h2, line _ _ h1 h2, line _ _ h1' h2', line _ _ h1' h2']
  have hpts : ∀ ψ : (ℝ × ℝ × ℝ) →ₗ[ℝ] ℝ, coords ψ ((List.range 105).map (tieXyz lons' lats' i))
      = coords (ψ ∘ₗ Motion.lin m) ((List.range 105).map (tieXyz lons lats i)) := by
    intro ψ
    simp only [coords, List.map_map]
    refine List.map_congr_left (fun b hb => ?_)
    have := motion_tie m 6370997 _ _ _ _ (hm i hi b (List.mem_range.1 hb))
    simp only [Function.comp, LinearMap.comp_apply, lin_point]
    congr 2
  obtain ⟨v, hv⟩ := spl_sum hS metopCols metopCols_sorted (by simp [metopCols]) fineCols[u] ((List.range 105).map (tieXyz lons lats i))
    (by simp [metopCols])
  simp only [hpts, hv, earth_val, Modis.defaultThr_val]
  simp only [LinearMap.comp_apply, lin_point]
  exact C96_convert m 6370997 (4 / 5) true v (by norm_num)

/-- piecewise linear functions are weighted sums of the data -/
theorem splSum_linSeg : SplSum (fun _ => linSeg) := by
  intro ks h h3 x
  obtain ⟨i, hi, h1, h2⟩ : ∃ i, i + 1 < ks.length ∧ (i = 0 ∨ ks.getD i 0 ≤ x) ∧ (i + 2 = ks.length ∨ x ≤ ks.getD (i + 1) 0) :=
    exists_segment ks (by omega) x
  refine ⟨fun j => (if j = i then 1 - (x - ks.getD i 0) / (ks.getD (i + 1) 0 - ks.getD i 0) else 0) +
    (if j = i + 1 then (x - ks.getD i 0) / (ks.getD (i + 1) 0 - ks.getD i 0) else 0), fun ys hy => ?_⟩
  show linSeg _ _ _ = _
  rw [linSeg_segment ks h ys hy i hi x h1 h2]
  congr 1
  simp only [add_mul, ite_mul, zero_mul, Finset.sum_add_distrib, Finset.sum_ite_eq', Finset.mem_range]
  rw [if_pos (by omega), if_pos hi]
  unfold lineThrough
  ring

/-- rows of ties a tenth of a degree apart, across the 180th meridian -/
noncomputable def sweepLon (R C : Nat) : List (List ℝ) := (List.range R).map (fun _ : Nat => (List.range C).map (fun j : Nat => 170 + (j : ℝ) / 10))
/-- the same a quarter of a turn further -/
noncomputable def sweepTurned (R C : Nat) : List (List ℝ) := (List.range R).map (fun _ : Nat => (List.range C).map (fun j : Nat => -100 + (j : ℝ) / 10))
/-- latitudes that grow along the track -/
noncomputable def sweepLat (R C : Nat) : List (List ℝ) := (List.range R).map (fun i : Nat => (List.range C).map (fun _ : Nat => (i : ℝ) / 10))

theorem shape_sweep (R C : Nat) : Shape R C (sweepLon R C) ∧ Shape R C (sweepTurned R C) ∧ Shape R C (sweepLat R C) :=
  by
  unfold sweepLon sweepTurned sweepLat
  refine ⟨?_, ?_, ?_⟩ <;> exact shape_grid _ _ _

theorem sweep_moved (R C : Nat) : Motion.Lists (.turn 90) R C (sweepLon R C) (sweepLat R C) (sweepTurned R C) (sweepLat R C) := by
  intro i hi j hj
  refine ⟨rfl, -1, ?_⟩
  simp [sweepLon, sweepTurned, hi, hj]
  ring

example := C96_modis1kmto250m (fun _ => linSeg) (fun _ _ _ => rfl) splSum_linSeg (.turn 90) 7 (by omega) (sweepLon 70 1354) (sweepLat 70 1354)
  (sweepTurned 70 1354) (sweepLat 70 1354) (shape_sweep 70 1354).1 (shape_sweep 70 1354).2.2 (shape_sweep 70 1354).2.1
  (shape_sweep 70 1354).2.2 (sweep_moved 70 1354) ⟨1, [0], [], by decide, by decide⟩
  ⟨3, [3, 1, 0, 2], [20, 40, 60], by decide, by decide⟩

example := C96_modis5kmto1km (fun _ => linSeg) (fun _ _ _ => rfl) splSum_linSeg (.turn 90) 3 (by omega) (sweepLon 6 271) (sweepLat 6 271)
  (sweepTurned 6 271) (sweepLat 6 271) (shape_sweep 6 271).1 (shape_sweep 6 271).2.2 (shape_sweep 6 271).2.1
  (shape_sweep 6 271).2.2 (sweep_moved 6 271)

example := C96_modis1kmto500m (fun _ => linSeg) (fun _ _ _ => rfl) splSum_linSeg (.turn 90) 7 (by omega) (sweepLon 70 1354) (sweepLat 70 1354)
  (sweepTurned 70 1354) (sweepLat 70 1354) (shape_sweep 70 1354).1 (shape_sweep 70 1354).2.2 (shape_sweep 70 1354).2.1
  (shape_sweep 70 1354).2.2 (sweep_moved 70 1354) ⟨1, [0], [], by decide, by decide⟩
  ⟨3, [3, 1, 0, 2], [20, 40, 60], by decide, by decide⟩

example := C96_metop20kmto1km (fun _ => linSeg) splSum_linSeg (.turn 90) 4 (sweepLon 4 105) (sweepLat 4 105)
  (sweepTurned 4 105) (sweepLat 4 105) (shape_sweep 4 105).1 (shape_sweep 4 105).2.2 (shape_sweep 4 105).2.1
  (shape_sweep 4 105).2.2 (sweep_moved 4 105)

end Verif.Props
