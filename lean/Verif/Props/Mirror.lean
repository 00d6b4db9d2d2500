import Verif.Proofs.Mirror
import Verif.Props.Modis
import Verif.Props.ModisSimple
import Verif.Model.Vii
import Verif.Spec.Bilinear

/-!
# C97: negated longitudes give exactly the negated longitudes and the same latitudes
-/

set_option linter.unusedSectionVars false

namespace Verif.Props
open Verif Verif.Spec Verif.Mirror Verif.Geo Verif.Interpolator SymArith

variable {α : Type} [Trig α] [SymArith α]

/-! ### zenith-angle MODIS -/

section modis
open Verif.Modis Verif.Spec.Modis

theorem fineComponent_neg (t s a b c d : α) : fineComponent t s (-a) (-b) (-c) (-d) = -fineComponent t s a b c d := by
  simp only [fineComponent, rmul, nadd]

theorem pixel_neg (cfg : Cfg) (lon lat satz : Nat → Nat → α) (r c : Nat) :
    pixel cfg (fun i j => -lon i j) lat satz r c = (-(pixel cfg lon lat satz r c).1, (pixel cfg lon lat satz r c).2) := by
  have h0 : ∀ i j, ties (fun i j => -lon i j) lat i j 0 = ties lon lat i j 0 := by
    intro i j; simp [ties, comp, Modis.tieXyz, cyLonlat2xyz_flip, mirrorPt]
  have h1 : ∀ i j, ties (fun i j => -lon i j) lat i j 1 = -ties lon lat i j 1 := by
    intro i j; simp [ties, comp, Modis.tieXyz, cyLonlat2xyz_flip, mirrorPt]
  have h2 : ∀ i j, ties (fun i j => -lon i j) lat i j 2 = ties lon lat i j 2 := by
    intro i j; simp [ties, comp, Modis.tieXyz, cyLonlat2xyz_flip, mirrorPt]
  unfold pixel scanPixel
  rw [← cyXyz2lonlat_flip]
  simp only [fineXyz, h0, h1, h2, fineComponent_neg, mirrorPt]

/-- **C97 (zenith-angle MODIS)** -/
theorem C97_modis (c : Conv) (n : Nat) (lon lat satz : Arr2 α) (h : ScanInput c n lon lat satz)
    (junk junk' : Nat → Nat → Nat → Nat → α) :
    ∃ out out', c.run lon lat satz junk = .ok out ∧ c.run (negArr lon) lat satz junk' = .ok out' ∧
      ∀ r < n * c.scanRows * c.factor, ∀ k < c.outCols,
        out'.1.cell r k = -out.1.cell r k ∧ out'.2.cell r k = out.2.cell r k := by
  obtain ⟨out, e1, p1, p2⟩ := run_pixel c h junk
  obtain ⟨out', f1, q1, q2⟩ := run_pixel c (n := n) (lon := negArr lon) (lat := lat) (satz := satz)
    ⟨h.width, h.lonRows, h.latRows, h.satzRows, h.latCols, h.satzCols⟩ junk'
  refine ⟨out, out', e1, f1, ?_⟩
  intro r hr k hk
  rw [p1.cell r k hr hk trivial, p2.cell r k hr hk trivial, q1.cell r k hr hk trivial, q2.cell r k hr hk trivial]
  have := pixel_neg (c.cfg lon.cols) lon.cell lat.cell satz.cell r k
  exact ⟨congrArg (·.1) this, congrArg (·.2) this⟩

end modis

/-! ### simple MODIS -/

section simple
open Verif.ModisSimple Verif.Spec.ModisSimple
open Verif.Spec.Modis (ties comp)

/-- the library interpolates negated data to the negated value -/
def OddLib (mc : MapCoord α) : Prop := ∀ R C v y x, mc R C (fun a b => -v a b) y x = -mc R C v y x

theorem fine_neg {mc : MapCoord α} (hmc : OddLib mc) (f cols : Nat) (V : Nat → Nat → α) (j i : Nat) :
    fine mc f cols (fun a b => -V a b) j i = -fine mc f cols V j i := by
  have hb : ∀ j i, base mc f cols (fun a b => -V a b) j i = -base mc f cols V j i := fun j i => hmc _ _ _ _ _
  have hr : ∀ j i, right mc f cols (fun a b => -V a b) j i = -right mc f cols V j i := by
    intro j i
    simp only [right, hb]
    split
    · rw [nsub, lmul, nadd]
    · rfl
  have hl : ∀ st o (v : Nat → α) j, line f st o (fun r => -v r) j = -line f st o v j := by
    intro st o v j
    simp only [line, nsub, ndiv, lmul, nadd]
  simp only [fine, hr, hl]
  split
  · rfl
  · split <;> rfl

/-- **C97 (simple MODIS)** -/
theorem C97_simple (c : SConv) (mc : MapCoord α) (hmc : OddLib mc) (n : Nat) (lon lat : Arr2 α) (h : SInput n lon lat)
    (junk junk' : Nat → Nat → Nat → Nat → α) :
    ∃ out out', c.run mc lon lat junk = .ok out ∧ c.run mc (negArr lon) lat junk' = .ok out' ∧
      ∀ r < lon.rows * c.factor, ∀ k < lon.cols * c.factor,
        out'.1.cell r k = -out.1.cell r k ∧ out'.2.cell r k = out.2.cell r k := by
  obtain ⟨out, e1, p1, p2⟩ := srun_pixel c mc h junk
  obtain ⟨out', f1, q1, q2⟩ := srun_pixel c mc (n := n) (lon := negArr lon) (lat := lat) ⟨h.cols, h.lonRows, h.latRows, h.latCols⟩ junk'
  refine ⟨out, out', e1, f1, ?_⟩
  intro r hr k hk
  rw [p1.cell r k hr hk trivial, p2.cell r k hr hk trivial, q1.cell r k hr hk trivial, q2.cell r k hr hk trivial]
  have h0 : ∀ i j, ties (fun i j => -lon.cell i j) lat.cell i j 0 = ties lon.cell lat.cell i j 0 := by
    intro i j; simp [ties, comp, Modis.tieXyz, cyLonlat2xyz_flip, mirrorPt]
  have h1 : ∀ i j, ties (fun i j => -lon.cell i j) lat.cell i j 1 = -ties lon.cell lat.cell i j 1 := by
    intro i j; simp [ties, comp, Modis.tieXyz, cyLonlat2xyz_flip, mirrorPt]
  have h2 : ∀ i j, ties (fun i j => -lon.cell i j) lat.cell i j 2 = ties lon.cell lat.cell i j 2 := by
    intro i j; simp [ties, comp, Modis.tieXyz, cyLonlat2xyz_flip, mirrorPt]
  have key : pixel mc c.factor lon.cols (fun i j => -lon.cell i j) lat.cell r k
      = (-(pixel mc c.factor lon.cols lon.cell lat.cell r k).1, (pixel mc c.factor lon.cols lon.cell lat.cell r k).2) := by
    unfold pixel scanPixel
    rw [← cyXyz2lonlat_flip]
    simp only [h0, h1, h2, fine_neg hmc, mirrorPt]
  exact ⟨congrArg (·.1) key, congrArg (·.2) key⟩

end simple

/-! ### VII -/

section vii
open Verif.Vii

/-- the data with every value negated -/
def negData (d : DataArray α) : DataArray α := { d with rows := negMat d.rows }

theorem getD_neg (l : List α) (i : Nat) : (l.map (- ·)).getD i 0 = -l.getD i 0 := by
  rw [List.getD_eq_getElem?_getD, List.getD_eq_getElem?_getD, List.getElem?_map]
  cases l[i]? with
  | none => exact nzero.symm
  | some a => rfl

theorem interp1_neg (xs ys : List α) (x : α) : interp1 xs (ys.map (- ·)) x = -interp1 xs ys x := by
  unfold interp1
  split
  · split
    · exact nnan.symm
    · simp only [getD_neg, nsub, ndiv, lmul, nadd]
  · exact nnan.symm

theorem interpAlt_neg (grid new : List Nat) (d : DataArray α) : interpAlt grid new (negData d) = (interpAlt grid new d).map negData := by
  unfold interpAlt
  split
  · rfl
  · simp only [Except.map, negData, negMat, List.map_map, Function.comp_def]
    congr 2
    refine List.map_congr_left (fun r _ => List.map_congr_left (fun c _ => ?_))
    rw [← interp1_neg, List.map_map]
    simp only [Function.comp_def, getD_neg]

theorem interpAct_neg (grid new : List Nat) (d : DataArray α) : interpAct grid new (negData d) = (interpAct grid new d).map negData := by
  unfold interpAct
  split
  · rfl
  · simp only [Except.map, negData, negMat, List.map_map, Function.comp_def, interp1_neg]

theorem interpOne_neg (dims : String × String) (shape : Nat × Nat) (s f : Nat) (d : DataArray α) :
    interpOne dims shape s f (negData d) = (interpOne dims shape s f d).map negData := by
  unfold interpOne
  have hs : (negData d).shape = d.shape := by simp [DataArray.shape, negData, negMat]
  have hd : (negData d).dims = d.dims := rfl
  rw [hs, hd]
  split
  · rfl
  · rw [interpAlt_neg]
    cases interpAlt (tieGrid shape.1 f) (pixelRows (shape.1 / s) s f) d with
    | error e => rfl
    | ok a => exact interpAct_neg _ _ a

theorem fold_neg (l : List α) (a : α) : (l.map (- ·)).foldl amax (-a) = -l.foldl amin a ∧ (l.map (- ·)).foldl amin (-a) = -l.foldl amax a := by
  induction l generalizing a with
  | nil => exact ⟨rfl, rfl⟩
  | cons b l ih =>
    have h1 : amax (-a) (-b) = -amin a b := by
      unfold amax amin
      rw [nlt]; split <;> rfl
    have h2 : amin (-a) (-b) = -amax a b := by
      unfold amax amin
      rw [nlt]; split <;> rfl
    simp only [List.map_cons, List.foldl_cons, h1, h2]
    exact ⟨(ih _).1, (ih _).2⟩

theorem nan_neg (l : List α) : nanMax (l.map (- ·)) = -nanMin l ∧ nanMin (l.map (- ·)) = -nanMax l := by
  have hf : (l.map (- ·)).filter (fun x => Arith.eq x x) = (l.filter (fun x => Arith.eq x x)).map (- ·) := by
    rw [List.filter_map]
    congr 1
    refine List.filter_congr (fun x _ => ?_)
    simp only [Function.comp_def, neq]
  unfold nanMax nanMin
  rw [hf]
  cases l.filter (fun x => Arith.eq x x) with
  | nil => exact ⟨nnan.symm, nnan.symm⟩
  | cons a l => exact fold_neg l a

theorem toCart_neg (lon lat : DataArray α) (latThr : α) : toCart (negData lon) lat latThr = toCart lon lat latThr := by
  have he : (negData lon).elems = lon.elems.map (- ·) := by
    simp only [DataArray.elems, negData, negMat, List.map_flatten]
  unfold toCart
  rw [he, (nan_neg lon.elems).1, (nan_neg lon.elems).2, nsub, rsub]

theorem cartesian_neg (f : α × α × α → α) (lon lat : DataArray α) :
    cartesian f (negData lon) lat = cartesian (fun p => f (mirrorPt p)) lon lat := by
  simp only [cartesian, negData, negMat, List.zipWith_map_left, lonlat2xyz_flip]

theorem cartesian_negY (lon lat : DataArray α) : cartesian (fun p => -p.2.1) lon lat = negData (cartesian (·.2.1) lon lat) := by
  simp only [cartesian, negData, negMat, List.map_zipWith]

theorem geodetic_neg (f : α × α → α) (zThr : α) (x y z : DataArray α) :
    geodetic f zThr x (negData y) z = geodetic (fun p => f (-p.1, p.2)) zThr x y z := by
  simp only [geodetic, negData, negMat]
  congr 1
  rw [List.zipWith_map_left]
  have : List.zipWith (fun (a : List α) b => (a.map (- ·)).zip b) y.rows z.rows
      = (List.zipWith List.zip y.rows z.rows).map (List.map (fun p => (-p.1, p.2))) := by
    rw [List.map_zipWith]
    congr 1
    funext a b
    rw [List.zip_map_left]
    rfl
  rw [this, List.zipWith_map_right]
  congr 1
  funext a b
  rw [List.zipWith_map_right]
  congr 1
  funext u v
  rw [← viiXyz2lonlat_flip]
  rfl

theorem geodetic_negLon (zThr : α) (x y z : DataArray α) :
    geodetic (fun p => -p.1) zThr x y z = negData (geodetic (·.1) zThr x y z) := by
  simp only [geodetic, negData, negMat, List.map_zipWith]

/-- **C97 (VII)**: for every pair of arrays, with the same error if there is one. -/
theorem C97_vii (lon lat : DataArray α) (scanTies factor : Nat) (latThr zThr : α) :
    tiePointsGeoInterpolation (negData lon) lat scanTies factor latThr zThr
      = (tiePointsGeoInterpolation lon lat scanTies factor latThr zThr).map (fun p => (negData p.1, p.2)) := by
  have hs : ∀ d : DataArray α, (negData d).shape = d.shape := fun d => by simp [DataArray.shape, negData, negMat]
  have hd : ∀ d : DataArray α, (negData d).dims = d.dims := fun d => rfl
  unfold tiePointsGeoInterpolation
  rw [toCart_neg, hs]
  split
  · rfl
  split
  · simp only [cartesian_neg, mirrorPt]
    rw [cartesian_negY]
    generalize cartesian (·.1) lon lat = x
    generalize cartesian (·.2.1) lon lat = y
    generalize cartesian (·.2.2) lon lat = z
    unfold tiePointsInterpolation
    by_cases a1 : scanTies = 0
    · simp only [if_pos a1]; rfl
    by_cases a2 : x.shape.1 % scanTies ≠ 0
    · simp only [if_neg a1, if_pos a2]; rfl
    by_cases a3 : factor = 0
    · simp only [if_neg a1, if_neg a2, if_pos a3]; rfl
    by_cases a4 : x.shape.1 / scanTies = 0
    · simp only [if_neg a1, if_neg a2, if_neg a3, if_pos a4]; rfl
    simp only [if_neg a1, if_neg a2, if_neg a3, if_neg a4, List.mapM_cons, List.mapM_nil, interpOne_neg]
    cases interpOne x.dims x.shape scanTies factor x with
    | error e => rfl
    | ok x' =>
      cases interpOne x.dims x.shape scanTies factor y with
      | error e => rfl
      | ok y' =>
        cases interpOne x.dims x.shape scanTies factor z with
        | error e => rfl
        | ok z' =>
          show Except.ok _ = Except.ok _
          rw [geodetic_neg, geodetic_neg, geodetic_negLon]
  · unfold tiePointsInterpolation
    simp only [hs, hd]
    by_cases a1 : scanTies = 0
    · simp only [if_pos a1]; rfl
    by_cases a2 : lon.shape.1 % scanTies ≠ 0
    · simp only [if_neg a1, if_pos a2]; rfl
    by_cases a3 : factor = 0
    · simp only [if_neg a1, if_neg a2, if_pos a3]; rfl
    by_cases a4 : lon.shape.1 / scanTies = 0
    · simp only [if_neg a1, if_neg a2, if_neg a3, if_pos a4]; rfl
    simp only [if_neg a1, if_neg a2, if_neg a3, if_neg a4, List.mapM_cons, List.mapM_nil, interpOne_neg]
    cases interpOne lon.dims lon.shape scanTies factor lon with
    | error e => rfl
    | ok x' =>
      cases interpOne lon.dims lon.shape scanTies factor lat with
      | error e => rfl
      | ok y' => rfl

end vii

end Verif.Props
