import Verif.Proofs.MirrorInterp
import Verif.Props.Mirror

/-!
# C97 for the presets, the multi-core driver and the grid and spline interpolators
-/

set_option linter.unusedSectionVars false

namespace Verif.Props
open Verif Verif.Spec Verif.Mirror Verif.Geo Verif.Interpolator Verif.Presets Verif.Multi Verif.Grid SymArith

variable {α : Type} [Trig α] [SymArith α]

/-! ### presets -/

theorem length_negMat (m : Mat α) : (negMat m).length = m.length := by simp [negMat]

theorem geoSt_neg {S : SplLib α} (hS : OddSpl S) (fill : List String) (r c hr hc : List α) (n kx ky : Nat) (D : List (Mat α)) :
    geoInterpXyz S fill ⟨r, c, hr, hc, n, sgs onlyY D, kx, ky⟩ = (geoInterpXyz S fill ⟨r, c, hr, hc, n, D, kx, ky⟩).map negLon :=
  geoInterpXyz_neg hS fill ⟨r, c, hr, hc, n, D, kx, ky⟩

/-- **C97 (`metop20kmto1km`)** -/
theorem C97_metop {S : SplLib α} (hS : OddSpl S) (lons lats : Mat α) :
    metop20kmto1km S (negMat lons) lats = (metop20kmto1km S lons lats).map negLon := by
  unfold metop20kmto1km
  simp only [geoTies_neg, length_negMat]
  exact geoSt_neg hS _ _ _ _ _ _ _ _ _

/-- **C97 (`modis5kmto1km`)** -/
theorem C97_modis5km {S : SplLib α} (hS : OddSpl S) (lons lats : Mat α) :
    modis5kmto1km S (negMat lons) lats = (modis5kmto1km S lons lats).map negLon := by
  unfold modis5kmto1km
  simp only [geoTies_neg, length_negMat]
  exact geoSt_neg hS _ _ _ _ _ _ _ _ _

theorem single500_neg {S : SplLib α} (hS : OddSpl S) (lons lats : Mat α) :
    modis1kmto500mSingle S (negMat lons) lats = (modis1kmto500mSingle S lons lats).map negLon := by
  unfold modis1kmto500mSingle
  simp only [geoTies_neg, length_negMat]
  exact geoSt_neg hS _ _ _ _ _ _ _ _ _

theorem single250_neg {S : SplLib α} (hS : OddSpl S) (lons lats : Mat α) :
    modis1kmto250mSingle S (negMat lons) lats = (modis1kmto250mSingle S lons lats).map negLon := by
  unfold modis1kmto250mSingle
  simp only [geoTies_neg, length_negMat]
  exact geoSt_neg hS _ _ _ _ _ _ _ _ _

theorem vsplit_neg (m : Mat α) (splits : List Nat) : vsplit (negMat m) splits = (vsplit m splits).map negMat := by
  simp only [vsplit, length_negMat, List.map_zipWith]
  congr 1
  funext a b
  simp [slice, negMat, List.map_drop, List.map_take]

theorem getD_negMats (l : List (Mat α)) (i : Nat) : (l.map negMat).getD i [] = negMat (l.getD i []) := by
  rw [List.getD_eq_getElem?_getD, List.getD_eq_getElem?_getD, List.getElem?_map]
  cases l[i]? <;> rfl

theorem runPool_map {γ δ : Type} (g : γ → δ) (task : Nat → γ) (sched : List Nat) (store : Nat → Option γ) :
    runPool (fun i => g (task i)) sched (fun j => (store j).map g) = fun j => (runPool task sched store j).map g := by
  induction sched generalizing store with
  | nil => rfl
  | cons i sched ih =>
    simp only [runPool]
    rw [← ih]
    congr 1
    funext j
    split <;> rfl

theorem getResult_map {γ δ : Type} (g : γ → δ) (store : Nat → Option (Except Err γ)) (i : Nat) :
    getResult (fun j => (store j).map (Except.map g)) i = (getResult store i).map g := by
  unfold getResult
  beta_reduce
  cases store i <;> rfl

/-- the multi-core driver, for any function that negates the longitudes with its input -/
theorem multi_neg {fn : Mat α → Mat α → Except Err (Mat α × Mat α)} (hfn : ∀ a b, fn (negMat a) b = (fn a b).map negLon)
    (lons lats : Mat α) (chunkSize cores : Nat) (sched : List Nat) :
    multi fn (negMat lons) lats chunkSize cores sched = (multi fn lons lats chunkSize cores sched).map negLon := by
  unfold multi
  rw [length_negMat]
  cases sceneSplits lons.length chunkSize cores with
  | error e => rfl
  | ok splits =>
    simp only [bind, Except.bind, vsplit_neg, List.length_map, getD_negMats, hfn]
    have h := runPool_map (Except.map (ε := Err) (negLon (α := α)))
      (fun i => fn ((vsplit lons splits).getD i []) ((vsplit lats splits).getD i [])) sched (fun _ => none)
    simp only [Option.map_none] at h
    rw [h]
    have hg := fun i => getResult_map (negLon (α := α))
      (runPool (fun i => fn ((vsplit lons splits).getD i []) ((vsplit lats splits).getD i [])) sched (fun _ => none)) i
    rw [funext hg, mapM_map_out]
    cases (List.range (vsplit lons splits).length).mapM (fun i => getResult (runPool (fun i => fn ((vsplit lons splits).getD i [])
      ((vsplit lats splits).getD i [])) sched (fun _ => none)) i) with
    | error e => rfl
    | ok rs =>
      show Except.ok _ = Except.ok _
      congr 1
      simp only [negLon, List.map_map, Function.comp_def, negMat, List.map_flatten]

/-- **C97 (`modis1kmto500m`)**: single- and multi-core, whatever order the workers finish in. -/
theorem C97_500m {S : SplLib α} (hS : OddSpl S) (lons lats : Mat α) (cores : Nat) (sched : List Nat) :
    modis1kmto500m S (negMat lons) lats cores sched = (modis1kmto500m S lons lats cores sched).map negLon := by
  unfold modis1kmto500m
  split
  · exact multi_neg (single500_neg hS) _ _ _ _ _
  · exact single500_neg hS _ _

/-- **C97 (`modis1kmto250m`)** -/
theorem C97_250m {S : SplLib α} (hS : OddSpl S) (lons lats : Mat α) (cores : Nat) (sched : List Nat) :
    modis1kmto250m S (negMat lons) lats cores sched = (modis1kmto250m S lons lats cores sched).map negLon := by
  unfold modis1kmto250m
  split
  · exact multi_neg (single250_neg hS) _ _ _ _ _
  · exact single250_neg hS _ _

/-! ### grid and spline interpolators -/

section grid
variable {κ : Type}

/-- the interpolator of the negated values -/
def NegSingle (s s' : Single κ α) : Prop :=
  ∀ kw, (s'.sci kw).ok = (s.sci kw).ok ∧ ∀ y x, (s'.sci kw).point y x = -(s.sci kw).point y x

/-- the interpolator of negated values gives negated values, or fails in the same way -/
def OddMake (make : Mat α → Except Err (Single κ α)) : Prop :=
  ∀ v, (∃ e, make v = .error e ∧ make (negMat v) = .error e)
    ∨ ∃ s s', make v = .ok s ∧ make (negMat v) = .ok s' ∧ NegSingle s s'

theorem interpolateNumpy_neg {s s' : Scipy α} (h : s'.ok = s.ok) (hp : ∀ y x, s'.point y x = -s.point y x) (ys xs : List α) :
    interpolateNumpy s' ys xs = (interpolateNumpy s ys xs).map negMat := by
  unfold interpolateNumpy
  rw [h]
  split
  · simp only [hp]
    show Except.ok _ = Except.ok _
    simp [negMat, List.map_map, Function.comp_def]
  · rfl

theorem interpolateSlices_neg {s s' : Scipy α} (h : s'.ok = s.ok) (hp : ∀ y x, s'.point y x = -s.point y x) (sl : List (Nat × Nat)) :
    interpolateSlices s' sl = (interpolateSlices s sl).map negMat := by
  rcases sl with _ | ⟨a, _ | ⟨b, _ | ⟨c, l⟩⟩⟩
  · rfl
  · rfl
  · exact interpolateNumpy_neg h hp _ _
  · rfl

/-- the task of a position -/
def pick {τ : Type} (L : List (List Nat × τ)) (F : τ → Except Err (Mat α)) (k : List Nat) : Except Err (Mat α) :=
  match L.reverse.find? (fun p => p.1 == k) with
  | some p => F p.2
  | none => .error .keyError

theorem pick_neg {τ : Type} (L : List (List Nat × τ)) (F : τ → Except Err (Mat α)) (k : List Nat) :
    pick L (fun t => (F t).map negMat) k = (pick L F k).map negMat := by
  unfold pick
  cases L.reverse.find? (fun p => p.1 == k) <;> rfl

theorem lookup_named {τ : Type} (n : Nat) (L : List (List Nat × τ)) (F : τ → Except Err (Mat α)) (k : List Nat) :
    lookup (L.map (fun p => ((n, p.1), F p.2))) (n, k) = pick L F k := by
  unfold lookup pick
  rw [← List.map_reverse, List.find?_map]
  have : ((fun p : (Nat × List Nat) × Except Err (Mat α) => p.1 == (n, k)) ∘ fun p : List Nat × τ => ((n, p.1), F p.2))
      = fun p => p.1 == k := by
    funext p
    show ((n, p.1) == (n, k)) = _
    rw [Bool.eq_iff_iff]
    simp
  rw [this]
  cases L.reverse.find? (fun p => p.1 == k) <;> rfl

theorem hcat_neg (h : Nat) (ms : List (Mat α)) : hcat h (ms.map negMat) = negMat (hcat h ms) := by
  unfold hcat
  induction ms with
  | nil => simp [negMat]
  | cons m ms ih =>
    rw [List.map_cons, List.foldr_cons, ih, List.foldr_cons]
    simp [negMat, List.zipWith_map_left, List.zipWith_map_right, List.map_zipWith]

/-- the blocks put together -/
def blocks {τ : Type} (L : List (List Nat × τ)) (F : τ → Except Err (Mat α)) (rc cc : List Nat) : Except Err (Mat α) := do
  let rows ← (List.range rc.length).mapM (fun i => do
    let bs ← (List.range cc.length).mapM (fun j => pick L F [i, j])
    .ok (hcat (rc.getD i 0) bs))
  .ok rows.flatten

theorem blocks_neg {τ : Type} (L : List (List Nat × τ)) (F : τ → Except Err (Mat α)) (rc cc : List Nat) :
    blocks L (fun t => (F t).map negMat) rc cc = (blocks L F rc cc).map negMat := by
  unfold blocks
  have hr : (fun i => ((List.range cc.length).mapM (fun j => pick L (fun t => (F t).map negMat) [i, j])).bind
        (fun bs => (.ok (hcat (rc.getD i 0) bs) : Except Err (Mat α))))
      = fun i => (((List.range cc.length).mapM (fun j => pick L F [i, j])).bind
        (fun bs => (.ok (hcat (rc.getD i 0) bs) : Except Err (Mat α)))).map negMat := by
    funext i
    simp only [pick_neg, mapM_map_out]
    cases (List.range cc.length).mapM (fun j => pick L F [i, j]) with
    | error e => rfl
    | ok bs =>
      show Except.ok _ = Except.ok _
      rw [hcat_neg]
  simp only [bind] at hr ⊢
  rw [hr, mapM_map_out]
  generalize (List.range rc.length).mapM (m := Except Err) _ = R
  cases R with
  | error e => rfl
  | ok v =>
    show Except.ok _ = Except.ok (List.map _ v.flatten)
    rw [List.map_flatten]
    rfl

theorem compute_blocks {τ : Type} (n : Nat) (L : List (List Nat × τ)) (F : τ → Except Err (Mat α)) (rc cc : List Nat) :
    DaskArr.compute ⟨L.map (fun p => ((n, p.1), F p.2)), n, rc, cc⟩ = blocks L F rc cc := by
  simp only [DaskArr.compute, DaskArr.computeIn, lookup_named, blocks]

theorem interpolate_blocks (tok : TokIn κ α → Nat) (s : Single κ α) (fineY fineX : List α) (rc cc : List Nat) (kw : κ) :
    s.interpolate tok fineY fineX (some (rc, cc)) kw
      = if ¬ (rc.sum = fineY.length ∧ cc.sum = fineX.length) then .error .valueError
        else blocks (enumerateChunkSlices [rc, cc]) (interpolateSlices (s.sci kw)) rc cc := by
  simp only [Single.interpolate, interpolateDask]
  by_cases hc : ¬ (rc.sum = fineY.length ∧ cc.sum = fineX.length)
  · simp only [if_pos hc]; rfl
  · simp only [if_neg hc]
    exact compute_blocks _ _ _ _ _

theorem interpolate_negSingle (tok tok' : TokIn κ α → Nat) {s s' : Single κ α} (h : NegSingle s s') (fineY fineX : List α)
    (chunks : Option (List Nat × List Nat)) (kw : κ) :
    s'.interpolate tok' fineY fineX chunks kw = (s.interpolate tok fineY fineX chunks kw).map negMat := by
  obtain ⟨h1, h2⟩ := h kw
  rcases chunks with _ | ⟨rc, cc⟩
  · exact interpolateNumpy_neg h1 h2 _ _
  · rw [interpolate_blocks, interpolate_blocks]
    split
    · rfl
    · rw [← blocks_neg]
      congr 1
      funext sl
      exact interpolateSlices_neg h1 h2 sl

/-- one array -/
def one (tok : TokIn κ α → Nat) (s : Single κ α) (fine : List (List α)) (chunks : Option (List Nat × List Nat)) (kw : κ) : Except Err (Mat α) :=
  match fine with
  | [fineY, fineX] => s.interpolate tok fineY fineX chunks kw
  | _ => .error .valueError

theorem multiple_one (tok : TokIn κ α → Nat) (is : List (Single κ α)) (fine : List (List α)) (chunks : Option (List Nat × List Nat)) (kw : κ) :
    interpolateMultiple tok is fine chunks kw = is.map (fun i => one tok i fine chunks kw) := by
  unfold interpolateMultiple
  rfl

theorem one_neg (tok tok' : TokIn κ α → Nat) {s s' : Single κ α} (h : NegSingle s s') (fine : List (List α))
    (chunks : Option (List Nat × List Nat)) (kw : κ) : one tok' s' fine chunks kw = (one tok s fine chunks kw).map negMat := by
  rcases fine with _ | ⟨a, _ | ⟨b, _ | ⟨c, l⟩⟩⟩
  · rfl
  · rfl
  · exact interpolate_negSingle tok tok' h _ _ _ _
  · rfl

theorem one_same (tok tok' : TokIn κ α → Nat) (s : Single κ α) (fine : List (List α)) (chunks : Option (List Nat × List Nat)) (kw : κ) :
    one tok' s fine chunks kw = one tok s fine chunks kw := by
  rcases fine with _ | ⟨a, _ | ⟨b, _ | ⟨c, l⟩⟩⟩
  · rfl
  · rfl
  · rcases chunks with _ | ⟨rc, cc⟩
    · rfl
    · simp only [one, interpolate_blocks]
  · rfl

theorem geo_neg {make : Mat α → Except Err (Single κ α)} (hm : OddMake make) (tok tok' : TokIn κ α → Nat) (x y z : Mat α)
    (fine : List (List α)) (chunks : Option (List Nat × List Nat)) (kw : κ) :
    ((mkMultiple make [x, negMat y, z]).bind fun is => interpolateGeo tok' is fine chunks kw)
      = ((mkMultiple make [x, y, z]).bind fun is => interpolateGeo tok is fine chunks kw).map negLon := by
  simp only [mkMultiple, List.mapM_cons, List.mapM_nil]
  cases make x with
  | error e => rfl
  | ok a =>
    rcases hm y with ⟨e, h1, h2⟩ | ⟨s, s', h1, h2, hn⟩
    · rw [h1, h2]; rfl
    · rw [h1, h2]
      cases make z with
      | error e => rfl
      | ok c =>
        show interpolateGeo tok' [a, s', c] fine chunks kw = (interpolateGeo tok [a, s, c] fine chunks kw).map negLon
        simp only [interpolateGeo, multiple_one, List.map_cons, List.map_nil, one_neg tok tok' hn, one_same tok tok' a, one_same tok tok' c, List.mapM_cons,
          List.mapM_nil, id]
        generalize one tok a fine chunks kw = A
        generalize one tok s fine chunks kw = B
        generalize one tok c fine chunks kw = C
        cases A with
        | error e => rfl
        | ok a' =>
          cases B with
          | error e => rfl
          | ok b' =>
            cases C with
            | error e => rfl
            | ok c' => exact toLonLat_neg [a', b', c']

/-- **C97 (`GeoGridInterpolator`, `GeoSplineInterpolator`)**: from construction to the result, with and without chunks, whatever dask's
`tokenize` returns, with the same error if there is one. -/
theorem C97_geo {make : Mat α → Except Err (Single κ α)} (hm : OddMake make) (tok tok' : TokIn κ α → Nat) (lons lats : Mat α)
    (fine : List (List α)) (chunks : Option (List Nat × List Nat)) (kw : κ) :
    ((mkGeo make [.array (negMat lons), .array lats]).bind fun is => interpolateGeo tok' is fine chunks kw)
      = ((mkGeo make [.array lons, .array lats]).bind fun is => interpolateGeo tok is fine chunks kw).map negLon := by
  show ((mkMultiple make (geoTies (negMat lons) lats)).bind _) = ((mkMultiple make (geoTies lons lats)).bind _).map _
  rw [geoTies_neg]
  exact geo_neg hm tok tok' _ _ _ fine chunks kw

/-- **C97 (to a shape)** -/
theorem C97_geo_shape {make : Mat α → Except Err (Single κ α)} (hm : OddMake make) (tok tok' : TokIn κ α → Nat) (lons lats : Mat α)
    (shape : List Nat) (chunks : Option (List Nat × List Nat)) (kw : κ) :
    ((mkGeo make [.array (negMat lons), .array lats]).bind fun is => interpolateGeoToShape tok' is shape chunks kw)
      = ((mkGeo make [.array lons, .array lats]).bind fun is => interpolateGeoToShape tok is shape chunks kw).map negLon :=
  C97_geo hm tok tok' lons lats _ chunks kw

/-- **C97 (an object with `get_cartesian_coords`)**: negated `y` coordinates. -/
theorem C97_geo_object {make : Mat α → Except Err (Single κ α)} (hm : OddMake make) (tok tok' : TokIn κ α → Nat) (x y z : Mat α)
    (fine : List (List α)) (chunks : Option (List Nat × List Nat)) (kw : κ) :
    ((mkGeo make [.pyresample x (negMat y) z]).bind fun is => interpolateGeo tok' is fine chunks kw)
      = ((mkGeo make [.pyresample x y z]).bind fun is => interpolateGeo tok is fine chunks kw).map negLon :=
  geo_neg hm tok tok' x y z fine chunks kw

/-- spline interpolators are of this kind -/
theorem oddMake_spline {S : SplLib α} (hS : OddSpl S) (kx ky : Nat) (py px : List α) : OddMake (singleSpline S kx ky py px) := by
  intro v
  unfold singleSpline mkSpline
  have h2 : (negMat v).all (fun r => r.length == px.length) = v.all (fun r => r.length == px.length) := by
    simp [negMat, List.all_map, Function.comp_def]
  rw [length_negMat, h2]
  split
  · rename_i h
    simp only [Bool.and_eq_true, beq_iff_eq, decide_eq_true_eq, List.all_eq_true] at h
    obtain ⟨⟨⟨⟨⟨_, _⟩, hlen⟩, hrow⟩, hkx⟩, hky⟩ := h
    refine .inr ⟨_, _, rfl, rfl, fun kw => ⟨rfl, fun y x => ?_⟩⟩
    show S kx py ((negMat v).map _) _ = -S kx py (v.map _) _
    rw [← hS kx py _ _ (by rw [List.length_map]; exact hlen) hkx, negMat, List.map_map, List.map_map]
    congr 1
    refine List.map_congr_left (fun r hr => ?_)
    exact hS _ _ _ _ (hrow r hr) hky
  · exact .inl ⟨_, rfl, rfl⟩

/-- the kernel of negated values gives the negated value -/
def OddKernel (kernel : List α → List α → Mat α → α → α → α) : Prop := ∀ gy gx v y x, kernel gy gx (negMat v) y x = -kernel gy gx v y x

theorem elem_neg (v : Mat α) (i j : Nat) : elem (negMat v) i j = -elem v i j := by
  unfold elem negMat
  have : (v.map (·.map (- ·))).getD i [] = (v.getD i []).map (- ·) := by
    rw [List.getD_eq_getElem?_getD, List.getD_eq_getElem?_getD, List.getElem?_map]
    cases v[i]? <;> rfl
  rw [this]
  generalize v.getD i [] = r
  rw [List.getD_eq_getElem?_getD, List.getD_eq_getElem?_getD, List.getElem?_map]
  cases r[j]? with
  | none => exact (nzero (α := α)).symm
  | some a => rfl

/-- the default method is of this kind -/
theorem oddKernel_linear : OddKernel (linearKernel : List α → List α → Mat α → α → α → α) := by
  intro gy gx v y x
  simp only [linearKernel, elem_neg, lmul, nadd]

/-- grid interpolators are of this kind if the fill value, if there is one, is its own negative (NaN, 0) -/
theorem oddMake_grid {kernel : κ → List α → List α → Mat α → α → α → α} (hk : ∀ kw, OddKernel (kernel kw)) (boundsError : Bool)
    (fill : Option α) (hf : ∀ v, fill = some v → -v = v) (py px : List α) : OddMake (singleGrid kernel boundsError fill py px) := by
  intro v
  unfold singleGrid mkRgi
  cases direction py with
  | error e => exact .inl ⟨_, rfl, rfl⟩
  | ok dy =>
    cases direction px with
    | error e => exact .inl ⟨_, rfl, rfl⟩
    | ok dx =>
      have h2 : (negMat v).all (fun r => r.length == px.length) = v.all (fun r => r.length == px.length) := by
        simp [negMat, List.all_map, Function.comp_def]
      simp only [bind, Except.bind]
      rw [length_negMat, h2]
      by_cases hc : ¬ (v.length = py.length ∧ (v.all fun r => r.length == px.length) = true)
      · simp only [if_pos hc]
        exact .inl ⟨_, rfl, rfl⟩
      · simp only [if_neg hc]
        refine .inr ⟨_, _, rfl, rfl, fun kw => ⟨rfl, fun y x => ?_⟩⟩
        have hv : (if dx then (if dy then (negMat v).reverse else negMat v).map List.reverse else if dy then (negMat v).reverse else negMat v)
            = negMat (if dx then (if dy then v.reverse else v).map List.reverse else if dy then v.reverse else v) := by
          cases dx <;> cases dy <;> simp [negMat, List.map_reverse, Function.comp_def]
        simp only [Rgi.scipy, Rgi.point]
        rw [hv]
        cases boundsError
        · cases fill with
          | none => exact hk kw _ _ _ _ _
          | some w =>
            simp only
            generalize (if dx then (if dy then v.reverse else v).map List.reverse else if dy then v.reverse else v) = v'
            generalize (if dy then py.reverse else py) = gy
            generalize (if dx then px.reverse else px) = gx
            split
            · exact (hf w rfl).symm
            · exact hk kw _ _ _ _ _
        · exact hk kw _ _ _ _ _

/-- NaN, the default fill value, is its own negative -/
theorem fill_nan (v : α) (h : some (0 / 0 : α) = some v) : -v = v := by
  cases h
  exact nnan

end grid

/-! ### examples -/

/-- `map_coordinates` with linear interpolation is of the kind that C97 asks for -/
theorem oddLib_mcLinear : OddLib Verif.ModisSimple.mcLinear := by
  intro R C v y x
  have hb : (FP.bad : FP ℝ) = -FP.bad := rfl
  have hat : ∀ a b, (if h : a < R ∧ b < C then -v ⟨a, h.1⟩ ⟨b, h.2⟩ else FP.bad) = -(if h : a < R ∧ b < C then v ⟨a, h.1⟩ ⟨b, h.2⟩ else FP.bad) := by
    intro a b
    split
    · rfl
    · exact hb
  cases y with
  | bad => rfl
  | val y =>
    cases x with
    | bad => rfl
    | val x =>
      simp only [Verif.ModisSimple.mcLinear, hat, rmul, nadd]

section
open Verif.Modis Verif.Spec.Modis Verif.ModisSimple Verif.Spec.ModisSimple

/-- two scans of zenith-angle MODIS with rounding to 53 bits: whatever the data, the pixels are mirrored exactly -/
example (lon lat satz : Nat → Nat → Fl (Err.symRounding 53 (by norm_num))) (junk : Nat → Nat → Nat → Nat → Fl (Err.symRounding 53 (by norm_num))) :
    ∃ out out', Conv.km5to1.run ⟨4, 270, lon⟩ ⟨4, 270, lat⟩ ⟨4, 270, satz⟩ junk = .ok out ∧
      Conv.km5to1.run (negArr ⟨4, 270, lon⟩) ⟨4, 270, lat⟩ ⟨4, 270, satz⟩ junk = .ok out' ∧
      ∀ r < 20, ∀ k < 1354, out'.1.cell r k = -out.1.cell r k ∧ out'.2.cell r k = out.2.cell r k :=
  letI := symArith_fl (Err.sym_symRounding 53 _)
  C97_modis Conv.km5to1 2 ⟨4, 270, lon⟩ ⟨4, 270, lat⟩ ⟨4, 270, satz⟩ ⟨(by simp [Conv.WidthOk]), rfl, rfl, rfl, rfl, rfl⟩ junk junk

/-- one scan of the simple MODIS interpolation -/
example (lon lat : Nat → Nat → FP ℝ) (junk : Nat → Nat → Nat → Nat → FP ℝ) (c : SConv) :
    ∃ out out', c.run mcLinear ⟨10, 1354, lon⟩ ⟨10, 1354, lat⟩ junk = .ok out ∧
      c.run mcLinear (negArr ⟨10, 1354, lon⟩) ⟨10, 1354, lat⟩ junk = .ok out' ∧
      ∀ r < 10 * c.factor, ∀ k < 1354 * c.factor, out'.1.cell r k = -out.1.cell r k ∧ out'.2.cell r k = out.2.cell r k :=
  C97_simple c mcLinear oddLib_mcLinear 1 ⟨10, 1354, lon⟩ ⟨10, 1354, lat⟩ ⟨by norm_num, rfl, rfl, rfl⟩ junk junk

end

/-- single and double precision together -/
example (p q : ℕ) (hp : 2 ≤ p) (hq : 2 ≤ q) (h : p ≤ q) (lon lat : Vii.DataArray (Mx ⟨Err.symRounding p hp, Err.symRounding q hq, h⟩))
    (latThr zThr : Mx ⟨Err.symRounding p hp, Err.symRounding q hq, h⟩) :
    Vii.tiePointsGeoInterpolation (negData lon) lat 6 24 latThr zThr
      = (Vii.tiePointsGeoInterpolation lon lat 6 24 latThr zThr).map (fun p => (negData p.1, p.2)) :=
  letI := symArith_mx (q := ⟨Err.symRounding p hp, Err.symRounding q hq, h⟩) (Err.sym_symRounding p hp).rnd (Err.sym_symRounding q hq)
  C97_vii lon lat 6 24 latThr zThr

/-- exact arithmetic, piecewise linear spline -/
example (lons lats : Mat (FP ℝ)) (cores : Nat) (sched : List Nat) :
    modis1kmto250m (fun _ => linSeg) (negMat lons) lats cores sched
      = (modis1kmto250m (fun _ => linSeg) lons lats cores sched).map negLon := C97_250m oddSpl_linSeg lons lats cores sched

/-- arithmetic with rounding, grid interpolator with NaN outside, in chunks -/
example (p : ℕ) (hp : 2 ≤ p) (lons lats : Mat (Fl (Err.symRounding p hp))) (py px fineY fineX : List (Fl (Err.symRounding p hp)))
    (rc cc : List Nat) :
    letI := symArith_fl (Err.sym_symRounding p hp)
    ((mkGeo (singleGrid (fun _ : Unit => linearKernel) false (some (0 / 0)) py px) [.array (negMat lons), .array lats]).bind
        fun is => interpolateGeo (fun _ => 0) is [fineY, fineX] (some (rc, cc)) ())
      = ((mkGeo (singleGrid (fun _ : Unit => linearKernel) false (some (0 / 0)) py px) [.array lons, .array lats]).bind
        fun is => interpolateGeo (fun _ => 0) is [fineY, fineX] (some (rc, cc)) ()).map negLon :=
  letI := symArith_fl (Err.sym_symRounding p hp)
  C97_geo (oddMake_grid (fun _ => oddKernel_linear) false _ (fun _ h => fill_nan _ h) py px) _ _ lons lats _ _ _

example (lons lats : Mat (FP ℝ)) (cores : Nat) (sched : List Nat) :
    modis1kmto500m (fun _ => linSeg) (negMat lons) lats cores sched
      = (modis1kmto500m (fun _ => linSeg) lons lats cores sched).map negLon := C97_500m oddSpl_linSeg lons lats cores sched

example (lons lats : Mat (FP ℝ)) : modis5kmto1km (fun _ => linSeg) (negMat lons) lats = (modis5kmto1km (fun _ => linSeg) lons lats).map negLon :=
  C97_modis5km oddSpl_linSeg lons lats

example (lons lats : Mat (FP ℝ)) : metop20kmto1km (fun _ => linSeg) (negMat lons) lats = (metop20kmto1km (fun _ => linSeg) lons lats).map negLon :=
  C97_metop oddSpl_linSeg lons lats

example (x y z : Mat (FP ℝ)) (py px fineY fineX : List (FP ℝ)) :=
  C97_geo_object (oddMake_spline oddSpl_linSeg 3 3 py px) (fun _ => 0) (fun _ => 1) x y z [fineY, fineX] none ()

example (lons lats : Mat (FP ℝ)) (py px : List (FP ℝ)) :=
  C97_geo_shape (oddMake_spline oddSpl_linSeg 3 3 py px) (fun _ => 0) (fun _ => 1) lons lats [20, 30] (some ([20], [10, 20])) ()

end Verif.Props
