import Verif.Props.Presets
import Verif.Props.Geo

/-!
# C20 (`metop20kmto1km`), C21 (`generic_modis5kmto1km`) and the counterexample of C16
-/

set_option linter.unusedSectionVars false

namespace Verif.Props
open Verif Verif.Interpolator Verif.Spec Verif.Presets Verif.Multi FP

/-! ### C20 -/

/-- the 1 km column of 20 km tie column `j`: 0, 4, 24, …, 2044, 2047 -/
def metopTie (j : Nat) : Nat := if j = 0 then 0 else if j = 104 then 2047 else 4 + 20 * (j - 1)

theorem metopCols_eq : [0] ++ pyRange 4 2048 20 ++ [2047] = (List.range 105).map metopTie := by decide +kernel

theorem metopTie_mono {i j : Nat} (h : i < j) (hj : j < 105) : metopTie i < metopTie j := by
  unfold metopTie; split_ifs <;> omega

theorem metopTie_lt {j : Nat} (hj : j < 105) : metopTie j < 2048 := by
  unfold metopTie; split_ifs <;> omega

/-- the tie columns as numbers -/
def metopCols : List ℝ := (List.range 105).map (fun j => (metopTie j : ℝ))

theorem metopCols_sorted : metopCols.Pairwise (· < ·) := by
  unfold metopCols
  rw [List.pairwise_map, List.pairwise_iff_getElem]
  intro i j hi hj hij
  rw [List.getElem_range, List.getElem_range]
  exact_mod_cast metopTie_mono hij (by simpa using hj)

/-- the fine columns as numbers -/
def fineCols : List ℝ := poss (fun i => (i : ℝ)) 2048

theorem fineCols_eq : poss (fun i => (i : ℝ)) 2048 = fineCols := rfl

theorem fineCols_length : fineCols.length = 2048 := poss_length _ _

attribute [irreducible] fineCols

/-- one cartesian coordinate along a line -/
noncomputable def metopXyz (S : SplLib (FP ℝ)) (f : FP ℝ × FP ℝ × FP ℝ → FP ℝ) (lon lat : List (FP ℝ)) (x : ℝ) : FP ℝ :=
  S 3 (metopCols.map val) (List.zipWith (fun a b => f (Geo.lonlat2xyz Geo.earthRadius a b)) lon lat) (val x)

/-- one line of the result -/
noncomputable def metopLine (S : SplLib (FP ℝ)) (g : FP ℝ × FP ℝ → FP ℝ) (lon lat : List (FP ℝ)) : List (FP ℝ) :=
  fineCols.map (fun x => g (Geo.xyz2lonlat Geo.earthRadius Geo.defaultThr true
    (metopXyz S (·.1) lon lat x, metopXyz S (·.2.1) lon lat x, metopXyz S (·.2.2) lon lat x)))

theorem zip3_zipWith {a b c d e : Type} (f : a → b → c) (g : a → b → d) (h : a → b → e) (A : List a) (B : List b) :
    (List.zipWith f A B).zip ((List.zipWith g A B).zip (List.zipWith h A B))
      = (A.zip B).map (fun p => (f p.1 p.2, g p.1 p.2, h p.1 p.2)) := by
  induction A generalizing B with
  | nil => simp
  | cons a A ih =>
    cases B with
    | nil => simp
    | cons b B => simp only [List.zipWith_cons_cons, List.zip_cons_cons, List.map_cons, ih]

theorem zip3_map {a c d e : Type} (f : a → c) (g : a → d) (h : a → e) (A : List a) :
    (A.map f).zip ((A.map g).zip (A.map h)) = A.map (fun p => (f p, g p, h p)) := by
  induction A with
  | nil => rfl
  | cons a A ih => simp only [List.map_cons, List.zip_cons_cons, ih]

theorem metop_eq (S : SplLib (FP ℝ)) (lons lats : Mat (FP ℝ)) (hl : lons.length = lats.length)
    (h1 : ∀ r ∈ lons, r.length = 105) (h2 : ∀ r ∈ lats, r.length = 105) :
    metop20kmto1km S lons lats
      = .ok (List.zipWith (metopLine S (·.1)) lons lats, List.zipWith (metopLine S (·.2)) lons lats) := by
  unfold metop20kmto1km geoInterpXyz
  have hc : ([0] ++ pyRange 4 2048 20 ++ [2047]).map (fun (n : Nat) => (Arith.ofInt (n : Int) : FP ℝ)) = metopCols.map val := by
    rw [metopCols_eq, metopCols, List.map_map, List.map_map]
    refine List.map_congr_left (fun j _ => ?_)
    simp
  simp only [hc, arange_unit, fineCols_eq]
  set st : Interp (FP ℝ) := ⟨(poss (fun i => (i : ℝ)) lons.length).map val, metopCols.map val,
    (poss (fun i => (i : ℝ)) lons.length).map val, fineCols.map val, 0, geoTies lons lats, 1, 3⟩ with hst
  have hfill : fillBorders [] st = (.ok (), st) := rfl
  rw [hfill]
  have hmat : ∀ g : FP ℝ × FP ℝ × FP ℝ → FP ℝ, ∀ d, d = List.zipWith (List.zipWith (fun lon lat =>
      g (Geo.lonlat2xyz Geo.earthRadius lon lat))) lons lats → interp1d S st d
        = .ok (d.map (fun r => fineCols.map (fun x => S 3 (metopCols.map val) r (val x)))) := by
    rintro g d rfl
    rw [interp1d_ok S st _ (by simp [hst, poss, hl]) (by
      intro r hr
      obtain ⟨a, ha, b, hb, rfl⟩ := mem_zipWith hr
      simp [hst, metopCols, h1 a ha, h2 b hb]) (by simp [hst, metopCols]) (by
      rw [hst, strictInc_val]; exact metopCols_sorted)]
    refine congrArg Except.ok ?_
    unfold oneVal
    have hlen : st.hrowIdx.length = (List.zipWith (List.zipWith (fun lon lat =>
      g (Geo.lonlat2xyz Geo.earthRadius lon lat))) lons lats).length := by simp [hst, poss, hl]
    rw [hlen]
    conv_rhs => rw [← range_map_getD (List.zipWith (List.zipWith (fun lon lat =>
      g (Geo.lonlat2xyz Geo.earthRadius lon lat))) lons lats) []]
    rw [List.map_map]
    refine List.map_congr_left (fun c _ => ?_)
    show (fineCols.map val).map _ = _
    rw [List.map_map, Function.comp]
    rfl
  have hint : interpolate S st = .ok (st.tieData.map (fun d => d.map (fun r => fineCols.map
      (fun x => S 3 (metopCols.map val) r (val x))))) := by
    unfold interpolate
    rw [if_pos (by rw [hst]; exact (arrayEqual_val _ _).mpr rfl)]
    refine mapM_ok (fun d hd => ?_)
    simp only [hst, geoTies, List.mem_cons, List.not_mem_nil, or_false] at hd
    rcases hd with h | h | h
    · exact hmat (·.1) d h
    · exact hmat (·.2.1) d h
    · exact hmat (·.2.2) d h
  simp only []
  rw [hint]
  simp only [hst, geoTies, List.map_cons, List.map_nil, toLonLat]
  have key : ∀ g : FP ℝ × FP ℝ → FP ℝ, _ = List.zipWith (metopLine S g) lons lats := fun g => by
    have e : ∀ f : FP ℝ × FP ℝ × FP ℝ → FP ℝ, (List.zipWith (List.zipWith (fun lon lat =>
        f (Geo.lonlat2xyz Geo.earthRadius lon lat))) lons lats).map (fun r => fineCols.map
        (fun x => S 3 (metopCols.map val) r (val x)))
        = List.zipWith (fun lo la => fineCols.map (metopXyz S f lo la)) lons lats := by
      intro f
      rw [List.map_zipWith]
      rfl
    show List.zipWith (fun rx r => List.zipWith (fun a b => g (Geo.xyz2lonlat Geo.earthRadius Geo.defaultThr true (a, b)))
      rx r) ((List.zipWith (List.zipWith (fun lon lat => (Geo.lonlat2xyz Geo.earthRadius lon lat).1)) lons lats).map
        (fun r => fineCols.map (fun x => S 3 (metopCols.map val) r (val x))))
        (List.zipWith List.zip ((List.zipWith (List.zipWith (fun lon lat => (Geo.lonlat2xyz Geo.earthRadius lon lat).2.1))
          lons lats).map (fun r => fineCols.map (fun x => S 3 (metopCols.map val) r (val x))))
        ((List.zipWith (List.zipWith (fun lon lat => (Geo.lonlat2xyz Geo.earthRadius lon lat).2.2))
          lons lats).map (fun r => fineCols.map (fun x => S 3 (metopCols.map val) r (val x))))) = _
    rw [e (·.1), e (·.2.1), e (·.2.2), zip3, zip3_zipWith, List.map_map]
    rw [← List.map_uncurry_zip_eq_zipWith (f := metopLine S g)]
    refine List.map_congr_left (fun p _ => ?_)
    simp only [Function.comp, Function.uncurry]
    unfold metopLine
    rw [← List.map_uncurry_zip_eq_zipWith, zip3_map, List.map_map]
    rfl
  rw [← key (·.1), ← key (·.2)]

/-- **C20 (shape, line by line)**: any number of lines of 105 tie points, any content, any spline library: the call
succeeds with one line of 2048 pixels per input line, and it is the stacked results of the calls on the single lines. -/
theorem C20_line_by_line (S : SplLib (FP ℝ)) (n : Nat) (lons lats : Mat (FP ℝ)) (h1 : Shape n 105 lons)
    (h2 : Shape n 105 lats) :
    ∃ lo la, metop20kmto1km S lons lats = .ok (lo, la) ∧ Shape n 2048 lo ∧ Shape n 2048 la ∧
      ∀ i < n, metop20kmto1km S [row lons i] [row lats i] = .ok ([row lo i], [row la i]) := by
  have hl : lons.length = lats.length := by rw [h1.1, h2.1]
  have sh : ∀ g, Shape n 2048 (List.zipWith (metopLine S g) lons lats) := by
    intro g
    refine ⟨by rw [List.length_zipWith, h1.1, h2.1, Nat.min_self], ?_⟩
    intro r hr
    obtain ⟨a, _, b, _, e⟩ := mem_zipWith hr
    rw [e, metopLine, List.length_map, fineCols_length]
  refine ⟨_, _, metop_eq S lons lats hl h1.2 h2.2, sh _, sh _, ?_⟩
  intro i hi
  have hi1 : i < List.length lons := by rw [h1.1]; exact hi
  have hi2 : i < List.length lats := by rw [h2.1]; exact hi
  have r1 : row lons i = lons[i] := by simp [row, hi1]
  have r2 : row lats i = lats[i] := by simp [row, hi2]
  have hrow : ∀ g, row (List.zipWith (metopLine S g) lons lats) i = metopLine S g lons[i] lats[i] := by
    intro g
    simp [row, hi1, hi2]
  rw [r1, r2, metop_eq S [lons[i]] [lats[i]] rfl (by intro r hr; rw [List.mem_singleton.mp hr]; exact h1.2 _ (List.getElem_mem _))
    (by intro r hr; rw [List.mem_singleton.mp hr]; exact h2.2 _ (List.getElem_mem _)), hrow, hrow]
  rfl

/-- **C20 (tie points)**: if the cubic spline of the library passes through its points, the pixel of line `i` at the 1 km
column of tie column `j` carries the tie longitude and latitude (off the poles and the 180-degree meridian), for any
line of numbers. -/
theorem C20_tie_points (S : SplLib (FP ℝ)) (hS : Interpolating S 3) (n : Nat) (lons lats : List (List ℝ))
    (h1 : Shape n 105 lons) (h2 : Shape n 105 lats) :
    ∃ lo la, metop20kmto1km S (lons.map (List.map val)) (lats.map (List.map val)) = .ok (lo, la) ∧
      ∀ i < n, ∀ j < 105,
        -180 < (lons.getD i []).getD j 0 → (lons.getD i []).getD j 0 < 180 →
        -90 < (lats.getD i []).getD j 0 → (lats.getD i []).getD j 0 < 90 →
        el (row lo i) (metopTie j) = val ((lons.getD i []).getD j 0) ∧
        el (row la i) (metopTie j) = val ((lats.getD i []).getD j 0) := by
  have w : ∀ m : List (List ℝ), Shape n 105 m → ∀ r ∈ m.map (List.map (val : ℝ → FP ℝ)), r.length = 105 := by
    intro m hm r hr
    obtain ⟨r', hr', rfl⟩ := List.mem_map.mp hr
    rw [List.length_map]; exact hm.2 r' hr'
  refine ⟨_, _, metop_eq S _ _ (by simp [h1.1, h2.1]) (w lons h1) (w lats h2), ?_⟩
  intro i hi j hj
  have hi1 : i < lons.length := by rw [h1.1]; exact hi
  have hi2 : i < lats.length := by rw [h2.1]; exact hi
  rw [getD_of_lt _ _ hi1, getD_of_lt _ _ hi2]
  have hj1 : j < lons[i].length := by rw [h1.2 _ (List.getElem_mem _)]; exact hj
  have hj2 : j < lats[i].length := by rw [h2.2 _ (List.getElem_mem _)]; exact hj
  rw [getD_of_lt _ _ hj1, getD_of_lt _ _ hj2]
  intro a b c d
  have hrow : ∀ g, row (List.zipWith (metopLine S g) (lons.map (List.map val)) (lats.map (List.map val))) i
      = metopLine S g (lons[i].map val) (lats[i].map val) := by
    intro g
    simp [row, hi1, hi2]
  have hlen1 : lons[i].length = 105 := h1.2 _ (List.getElem_mem _)
  have hlen2 : lats[i].length = 105 := h2.2 _ (List.getElem_mem _)
  have hcol : ∀ (f : FP ℝ × FP ℝ × FP ℝ → FP ℝ) (f' : ℝ × ℝ × ℝ → ℝ),
      (∀ x y, f (Geo.lonlat2xyz Geo.earthRadius (val x) (val y)) = val (f' (Spec.spherePoint 6370997 x y))) →
      S 3 (metopCols.map val) (List.zipWith (fun a b => f (Geo.lonlat2xyz Geo.earthRadius a b)) (lons[i].map val)
        (lats[i].map val)) (val (metopTie j : ℝ)) = f (Geo.lonlat2xyz Geo.earthRadius (val lons[i][j]) (val lats[i][j])) := by
    intro f f' hf
    have e : List.zipWith (fun a b => f (Geo.lonlat2xyz Geo.earthRadius a b)) (lons[i].map val) (lats[i].map val)
        = (List.zipWith (fun x y => f' (Spec.spherePoint 6370997 x y)) lons[i] lats[i]).map val := by
      rw [List.map_zipWith, List.zipWith_map]
      simp only [hf]
    rw [e]
    have hmc : j < metopCols.length := by simp [metopCols, hj]
    have := hS metopCols (List.zipWith (fun x y => f' (Spec.spherePoint 6370997 x y)) lons[i] lats[i]) metopCols_sorted
      (by simp [metopCols, hlen1, hlen2]) (by simp [metopCols]) j hmc (by simp [hlen1, hlen2, hj])
    have hj' : metopCols[j] = (metopTie j : ℝ) := by simp [metopCols]
    rw [hj'] at this
    rw [this, hf]
    simp
  have hR : (Geo.earthRadius : FP ℝ) = val 6370997 := by
    simp only [Geo.earthRadius, lit_eq]; norm_num
  have hv : ∀ x y, Geo.lonlat2xyz (Geo.earthRadius : FP ℝ) (val x) (val y)
      = (val (Spec.spherePoint 6370997 x y).1, val (Spec.spherePoint 6370997 x y).2.1,
          val (Spec.spherePoint 6370997 x y).2.2) := by
    intro x y
    rw [hR]; exact Geo.lonlat2xyz_val 6370997 x y
  have hpix : ∀ g, el (metopLine S g (lons[i].map val) (lats[i].map val)) (metopTie j)
      = g (val lons[i][j], val lats[i][j]) := by
    intro g
    have hr := C01_roundtrip_partial 6370997 (((8 : Nat) : ℝ) / 10 ^ 1) lons[i][j] lats[i][j] true (by norm_num) a b c d
    unfold metopLine
    have hlt : metopTie j < fineCols.length := by rw [fineCols_length]; exact metopTie_lt hj
    have hfc : fineCols[metopTie j] = (metopTie j : ℝ) := by
      have := poss_getD (fun i => (i : ℝ)) (metopTie_lt hj)
      rw [← this, ← getD_of_lt _ 0 hlt, fineCols_eq]
    rw [el, getD_of_lt _ _ (by rw [List.length_map]; exact hlt), List.getElem_map, hfc]
    unfold metopXyz
    rw [hcol (·.1) (·.1) (fun x y => by rw [hv]), hcol (·.2.1) (·.2.1) (fun x y => by rw [hv]),
      hcol (·.2.2) (·.2.2) (fun x y => by rw [hv])]
    rw [← hR] at hr
    exact congrArg g hr
  rw [hrow, hrow, hpix, hpix]
  exact ⟨rfl, rfl⟩

theorem interpolating_linSeg_three : Interpolating (K := ℝ) (fun _ => linSeg) 3 := by
  intro ks ys h hl hk i hi _
  exact linSeg_node ks h ys hl (by omega) i hi

/-- three lines of tie points a degree apart -/
example := C20_tie_points (fun _ => linSeg) interpolating_linSeg_three 3
  ((List.range 3).map (fun i => (List.range 105).map (fun j => (j : ℝ) - 50 + i / 10)))
  ((List.range 3).map (fun i => (List.range 105).map (fun j => (i : ℝ) / 10 + j / 1000)))
  ⟨by simp, by intro r hr; obtain ⟨i, _, rfl⟩ := List.mem_map.mp hr; simp⟩
  ⟨by simp, by intro r hr; obtain ⟨i, _, rfl⟩ := List.mem_map.mp hr; simp⟩

example (S : SplLib (FP ℝ)) := C20_line_by_line S 30 _ _ (shape_const 30 105 (val 12)) (shape_const 30 105 bad)

/-! ### C21 -/

theorem tieRowsIn_first {n : Nat} (hn : 1 ≤ n) :
    tieRowsIn ((poss (fun i => 2 + (i : ℝ) * 5) n).map (val : ℝ → FP ℝ)) (val 2) (val 4) = [0] := by
  unfold tieRowsIn
  rw [List.length_map, poss_length]
  obtain ⟨m, rfl⟩ : ∃ m, n = m + 1 := ⟨n - 1, by omega⟩
  have hf : ∀ i ∈ List.range (m + 1), (Arith.le (val 2) (el ((poss (fun i => 2 + (i : ℝ) * 5) (m + 1)).map val) i) &&
      Arith.lt (el ((poss (fun i => 2 + (i : ℝ) * 5) (m + 1)).map val) i) (val 4 : FP ℝ)) = decide (i = 0) := by
    intro i hi
    rw [poss_el _ (List.mem_range.mp hi), le_val, lt_val, ← Bool.decide_and]
    refine decide_eq_decide.mpr ⟨?_, ?_⟩
    · rintro ⟨_, h⟩
      by_contra h0
      have : (1 : ℝ) ≤ i := by exact_mod_cast Nat.one_le_iff_ne_zero.mpr h0
      linarith
    · rintro rfl
      norm_num
  rw [List.filter_congr hf, List.range_succ_eq_map, List.filter_cons_of_pos (by simp),
    List.filter_eq_nil_iff.mpr]
  intro i hi
  obtain ⟨j, _, rfl⟩ := List.mem_map.mp hi
  simp

theorem tieRowsIn_none (n : Nat) :
    tieRowsIn ((poss (fun i => 2 + (i : ℝ) * 5) n).map (val : ℝ → FP ℝ)) (val 0) (val 2) = [] := by
  unfold tieRowsIn
  rw [List.length_map, poss_length, List.filter_eq_nil_iff]
  intro i hi
  rw [poss_el _ (List.mem_range.mp hi), le_val, lt_val, ← Bool.decide_and]
  simp only [decide_eq_true_eq, not_and, not_lt]
  intro _
  have : (0 : ℝ) ≤ i := Nat.cast_nonneg i
  linarith

/-- **C21 (negation)**: `generic_modis5kmto1km` raises on every input: for any number of lines, any arrays and any
spline library.  (The row positions 2, 7, 12, … are compared with line numbers divided by the upsampling factor, so no
chunk contains its own two tie lines.) -/
theorem C21_negation (S : SplLib (FP ℝ)) (data : List (Mat (FP ℝ))) : ∃ e, genericModis5kmto1km S data = .error e := by
  match data with
  | [] => exact ⟨_, rfl⟩
  | d :: ds =>
  unfold genericModis5kmto1km
  simp only
  set n := List.length d with hn
  rw [arange_five (m := n * 5) (n := n) (by omega), arange_unit (n * 5)]
  set st : Interp (FP ℝ) := ⟨(poss (fun i => 2 + (i : ℝ) * 5) n).map val, arange 2 1354 5,
    (poss (fun i => (i : ℝ)) (n * 5)).map val, arange 0 1354 1, 10, d :: ds, 1, 3⟩ with hst
  suffices h : ∃ e, fillRows st = .error e by
    obtain ⟨e, he⟩ := h
    refine ⟨e, ?_⟩
    unfold fillBorders
    rw [show ["y", "x"].mapM (fillCase (α := FP ℝ)) = .ok [fillRows, fillCols] from rfl]
    simp only [runFills, he]
  have hr : st.rowIdx.length = n := by simp [hst, poss]
  have hh : st.hrowIdx.length = n * 5 := by simp [hst, poss]
  by_cases hdvd : 10 ∣ n * 5
  swap
  · exact fillRows_partial_chunk (by rw [hh]; exact hdvd)
  by_cases h0 : n = 0
  · refine ⟨.zeroDivision, ?_⟩
    unfold fillRows
    simp only [if_pos (hr.trans h0)]
  have hnR : (n : ℝ) ≠ 0 := by exact_mod_cast h0
  have hfac : (Arith.ofInt ((n * 5 : Nat) : Int) / Arith.ofInt ((n : Nat) : Int) : FP ℝ) = val 5 := by
    simp only [ofInt_eq]
    push_cast
    rw [val_div_of_ne _ hnR]
    congr 1
    field_simp
  unfold fillRows
  simp only [show st.chunk = 10 from rfl,
    if_neg (show ¬ (10 : Nat) = 0 by norm_num), hr, hh, hfac, if_neg h0]
  have hdiv : ∀ a b : ℝ, a = b * 5 → (val a / val 5 : FP ℝ) = val b := by
    rintro a b rfl
    rw [val_div_of_ne _ (by norm_num)]
    congr 1
    field_simp
  by_cases h2 : n = 2
  · -- one chunk without a tie line
    have hlo : (Arith.ofInt ((0 : Nat) : Int) / val 5 : FP ℝ) = val 0 := by
      simp only [ofInt_eq]
      exact hdiv _ _ (by push_cast; ring)
    have hhi : (Arith.ofInt ((0 + 10 : Nat) : Int) / val 5 : FP ℝ) = val 2 := by
      simp only [ofInt_eq]
      exact hdiv _ _ (by push_cast; ring)
    have hrc : rowChunk st 10 (val 5) 0 = .ok (st.tieData.map (fun _ => []), [val 0, val 9]) := by
      unfold rowChunk
      simp only [hlo, hhi]
      have ht : tiesIn st.rowIdx (val 0) (val 2) = [] := by
        rw [tiesIn_eq]
        rw [show st.rowIdx = (poss (fun i => 2 + (i : ℝ) * 5) n).map val from rfl, tieRowsIn_none]
        rfl
      rw [ht]
      have hcd : ∀ data ∈ st.tieData, chunkData data [] st.hrowIdx 0 10 = .ok [] := by
        intro data _; rfl
      have i0 : idx st.hrowIdx 0 = .ok (val 0) := by
        simp [idx, hst, poss, h2]
      have i9 : idx st.hrowIdx (0 + 10 - 1) = .ok (val 9) := by
        simp [idx, hst, poss, h2]
      rw [mapM_ok (g := fun _ => []) hcd, i0, i9]
      rfl
    have hrs : rangeStep (n * 5) 10 = [0] := by rw [h2]; rfl
    rw [hrs]
    have hp : [0].mapM (rowChunk st 10 (val 5)) = .ok [(st.tieData.map (fun _ => []), [val 0, val 9])] := by
      rw [List.mapM_cons, hrc]; rfl
    rw [hp]
    obtain ⟨e, he⟩ := mapM_error (f := stackPart [(st.tieData.map (fun _ => ([] : Mat (FP ℝ))), [val 0, val 9])])
      (l := List.range st.tieData.length) (a := 0) (by simp [hst]) ⟨.valueError, by simp [stackPart, hst]⟩
    exact ⟨e, by simp only [bind, Except.bind, he]⟩
  · -- the second chunk has a single tie line
    have hn4 : 4 ≤ n := by omega
    have hlo : (Arith.ofInt ((10 : Nat) : Int) / val 5 : FP ℝ) = val 2 := by
      simp only [ofInt_eq]
      exact hdiv _ _ (by push_cast; ring)
    have hhi : (Arith.ofInt ((10 + 10 : Nat) : Int) / val 5 : FP ℝ) = val 4 := by
      simp only [ofInt_eq]
      exact hdiv _ _ (by push_cast; ring)
    have hmem : 10 ∈ rangeStep (n * 5) 10 :=
      List.mem_map.mpr ⟨1, List.mem_range.mpr (by omega), rfl⟩
    obtain ⟨e, he⟩ := mapM_error (f := rowChunk st 10 (val 5)) hmem (by
      unfold rowChunk
      simp only [hlo, hhi]
      have ht : tiesIn st.rowIdx (val 2) (val 4) = [(0, el st.rowIdx 0)] := by
        rw [tiesIn_eq]
        rw [show st.rowIdx = (poss (fun i => 2 + (i : ℝ) * 5) n).map val from rfl, tieRowsIn_first (by omega)]
        rfl
      rw [ht]
      obtain ⟨e, he⟩ := mapM_error (f := fun data => chunkData data [(0, el st.rowIdx 0)] st.hrowIdx 10 10)
        (l := st.tieData) (a := d) (by simp [hst]) (by
          unfold chunkData
          cases hx : [(0, el st.rowIdx 0)].mapM (fun t => idx d t.1) with
          | error e => exact ⟨e, rfl⟩
          | ok r => exact ⟨.indexError, rfl⟩)
      exact ⟨e, by simp only [bind, Except.bind, he]⟩)
    exact ⟨e, by simp only [bind, Except.bind, he]⟩

example (S : SplLib (FP ℝ)) := C21_negation S [List.replicate 8 (List.replicate 271 (val 1))]

end Verif.Props
