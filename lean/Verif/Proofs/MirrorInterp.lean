import Verif.Proofs.Mirror
import Verif.Proofs.InterpolatorComm
import Verif.Model.GridInterp

/-!
# Interpolators on negated data
-/

set_option linter.unusedSectionVars false

namespace Verif.Mirror
open Verif Verif.Spec Verif.Geo Verif.Interpolator Verif.Presets SymArith

variable {α : Type} [Trig α] [SymArith α]

/-! ### lists -/

theorem mapM_map_out {β γ δ : Type} (F : β → Except Err γ) (g : γ → δ) (l : List β) :
    l.mapM (fun x => (F x).map g) = (l.mapM F).map (List.map g) := by
  induction l with
  | nil => rfl
  | cons a l ih =>
    rw [List.mapM_cons, List.mapM_cons, ih]
    cases F a with
    | error e => rfl
    | ok v => cases l.mapM F <;> rfl

/-- a matrix, negated or not -/
def sg (b : Bool) (m : Mat α) : Mat α := if b then negMat m else m

/-- some of the matrices negated -/
def sgs (b : Nat → Bool) (D : List (Mat α)) : List (Mat α) := D.mapIdx (fun i m => sg (b i) m)

theorem sgs_cons (b : Nat → Bool) (m : Mat α) (D : List (Mat α)) : sgs b (m :: D) = sg (b 0) m :: sgs (fun i => b (i + 1)) D := by
  simp [sgs, List.mapIdx_cons]

theorem mapM_sgs {F : Mat α → Except Err (Mat α)} (hF : ∀ m, F (negMat m) = (F m).map negMat) (b : Nat → Bool) (D : List (Mat α)) :
    (sgs b D).mapM F = (D.mapM F).map (sgs b) := by
  have h : ∀ b m, F (sg b m) = (F m).map (sg b) := by
    intro b m
    cases b
    · show F m = (F m).map id
      cases F m <;> rfl
    · exact hF m
  induction D generalizing b with
  | nil => rfl
  | cons m D ih =>
    rw [sgs_cons, List.mapM_cons, List.mapM_cons, ih, h]
    cases F m with
    | error e => rfl
    | ok v =>
      cases D.mapM F with
      | error e => rfl
      | ok w =>
        show Except.ok _ = Except.ok _
        rw [sgs_cons]

theorem mapM_range_sgs (F : Nat → Except Err (Mat α)) (b : Nat → Bool) (s n : Nat) :
    (List.range' s n).mapM (fun num => (F num).map (sg (b num))) = ((List.range' s n).mapM F).map (sgs (fun i => b (s + i))) := by
  induction n generalizing s with
  | zero => rfl
  | succ n ih =>
    rw [List.range'_succ, List.mapM_cons, List.mapM_cons, ih]
    cases F s with
    | error e => rfl
    | ok v =>
      cases (List.range' (s + 1) n).mapM F with
      | error e => rfl
      | ok w =>
        show Except.ok _ = Except.ok _
        rw [sgs_cons]
        congr 3
        funext i
        congr 1
        omega

theorem getD_sgs (b : Nat → Bool) (D : List (Mat α)) (num : Nat) : (sgs b D).getD num [] = sg (b num) (D.getD num []) := by
  unfold sgs
  rw [List.getD_eq_getElem?_getD, List.getElem?_mapIdx, List.getD_eq_getElem?_getD]
  cases D[num]? with
  | none => cases b num <;> rfl
  | some m => rfl

theorem length_sgs (b : Nat → Bool) (D : List (Mat α)) : (sgs b D).length = D.length := by simp [sgs]

/-! ### filling the borders -/

theorem extrap1_neg (p0 p1 d0 d1 x : α) : extrap1 p0 p1 (-d0) (-d1) x = -extrap1 p0 p1 d0 d1 x := by
  simp only [extrap1, nsub, rmul, nadd]

/-- the row with every element negated -/
abbrev negRow (r : List α) : List α := r.map (- ·)

theorem linearExtrapolate_neg (pos : List α) (data : List (List α)) (x : α) :
    linearExtrapolate pos (data.map negRow) x = (linearExtrapolate pos data x).map negRow := by
  rcases pos with _ | ⟨p0, _ | ⟨p1, _ | _⟩⟩ <;> rcases data with _ | ⟨d0, _ | ⟨d1, _ | _⟩⟩ <;> try rfl
  show Except.ok _ = Except.ok _
  rw [List.zipWith_map_left, List.zipWith_map_right]
  simp only [extrap1_neg, negRow, List.map_zipWith]

theorem mapM_idx_neg (i : Nat) (m : Mat α) : (negMat m).mapM (fun r => idx r i) = (m.mapM (fun r => idx r i)).map negRow := by
  unfold negMat
  rw [List.mapM_map]
  simp only [Function.comp_def, idx_map]
  exact mapM_map_out _ _ _

theorem mapM_idxEnd_neg (i : Nat) (m : Mat α) : (negMat m).mapM (fun r => idxEnd r i) = (m.mapM (fun r => idxEnd r i)).map negRow := by
  unfold negMat
  rw [List.mapM_map]
  simp only [Function.comp_def, idxEnd_map]
  exact mapM_map_out _ _ _

theorem extrapolateCols_neg (st : Interp α) (m : Mat α) (first last : Bool) :
    extrapolateCols st (negMat m) first last = (extrapolateCols st m first last).map negMat := by
  have hf : (if first then do
        let c0 ← (negMat m).mapM (fun r => idx r 0)
        let c1 ← (negMat m).mapM (fun r => idx r 1)
        let h ← idx st.hcolIdx 0
        linearExtrapolate (st.colIdx.take 2) [c0, c1] h
      else .ok []) = (if first then do
        let c0 ← m.mapM (fun r => idx r 0)
        let c1 ← m.mapM (fun r => idx r 1)
        let h ← idx st.hcolIdx 0
        linearExtrapolate (st.colIdx.take 2) [c0, c1] h
      else .ok []).map negRow := by
    cases first
    · rfl
    · simp only [if_true, mapM_idx_neg]
      cases m.mapM (fun r => idx r 0) with
      | error e => rfl
      | ok c0 =>
        cases m.mapM (fun r => idx r 1) with
        | error e => rfl
        | ok c1 =>
          cases idx st.hcolIdx 0 with
          | error e => rfl
          | ok h => exact linearExtrapolate_neg _ [c0, c1] h
  have hl : (if last then do
        let c0 ← (negMat m).mapM (fun r => idxEnd r 2)
        let c1 ← (negMat m).mapM (fun r => idxEnd r 1)
        let h ← idxEnd st.hcolIdx 1
        linearExtrapolate (lastTwo st.colIdx) [c0, c1] h
      else .ok []) = (if last then do
        let c0 ← m.mapM (fun r => idxEnd r 2)
        let c1 ← m.mapM (fun r => idxEnd r 1)
        let h ← idxEnd st.hcolIdx 1
        linearExtrapolate (lastTwo st.colIdx) [c0, c1] h
      else .ok []).map negRow := by
    cases last
    · rfl
    · simp only [if_true, mapM_idxEnd_neg]
      cases m.mapM (fun r => idxEnd r 2) with
      | error e => rfl
      | ok c0 =>
        cases m.mapM (fun r => idxEnd r 1) with
        | error e => rfl
        | ok c1 =>
          cases idxEnd st.hcolIdx 1 with
          | error e => rfl
          | ok h => exact linearExtrapolate_neg _ [c0, c1] h
  unfold extrapolateCols
  simp only
  rw [hf, hl]
  generalize (if first = true then _ else _ : Except Err (List α)) = A
  generalize (if last = true then _ else _ : Except Err (List α)) = B
  cases A with
  | error e => rfl
  | ok a =>
    cases B with
    | error e => rfl
    | ok b =>
      cases first <;> cases last
      · rfl
      · show Except.ok _ = Except.ok _
        simp [negMat, negRow, List.zipWith_map_left, List.zipWith_map_right, List.map_zipWith]
      · show Except.ok _ = Except.ok _
        simp [negMat, negRow, List.zipWith_map_left, List.zipWith_map_right, List.map_zipWith]
      · show Except.ok _ = Except.ok _
        have e : List.zipWith (fun r l => r ++ [l]) (negMat m) (negRow b) = negMat (List.zipWith (fun r l => r ++ [l]) m b) := by
          simp [negMat, negRow, List.zipWith_map_left, List.zipWith_map_right, List.map_zipWith]
        have e' : ∀ m' : Mat α, List.zipWith (fun f r => f :: r) (negRow a) (negMat m') = negMat (List.zipWith (fun f r => f :: r) a m') := by
          intro m'
          simp [negMat, negRow, List.zipWith_map_left, List.zipWith_map_right, List.map_zipWith]
        congr 1
        show List.zipWith (fun f r => f :: r) (negRow a) (List.zipWith (fun r l => r ++ [l]) (negMat m) (negRow b)) = _
        rw [e, e']

theorem extrapolateRows_neg (m : Mat α) (rowIdx : List α) (a b : α) :
    extrapolateRows (negMat m) rowIdx a b = (extrapolateRows m rowIdx a b).map negMat := by
  unfold extrapolateRows negMat
  simp only [idx_map, idxEnd_map]
  cases idx m 0 with
  | error e => rfl
  | ok d0 =>
    cases idx m 1 with
    | error e => rfl
    | ok d1 =>
      show (do
        let f ← linearExtrapolate (rowIdx.take 2) ([d0, d1].map negRow) a
        _) = _
      rw [linearExtrapolate_neg]
      simp only [bind, Except.bind]
      cases linearExtrapolate (rowIdx.take 2) [d0, d1] a with
      | error e => rfl
      | ok f =>
        cases idxEnd m 2 with
        | error e => rfl
        | ok e0 =>
          cases idxEnd m 1 with
          | error e => rfl
          | ok e1 =>
            have := linearExtrapolate_neg (lastTwo rowIdx) [e0, e1] b
            simp only [List.map_cons, List.map_nil] at this
            simp only [Except.map]
            rw [this]
            cases linearExtrapolate (lastTwo rowIdx) [e0, e1] b with
            | error e => rfl
            | ok l => simp [Except.map]

theorem chunkData_neg (m : Mat α) (ties : List (Nat × α)) (h : List α) (index chunk : Nat) :
    chunkData (negMat m) ties h index chunk = (chunkData m ties h index chunk).map negMat := by
  unfold chunkData
  have : ties.mapM (fun t => idx (negMat m) t.1) = (ties.mapM (fun t => idx m t.1)).map negMat := by
    unfold negMat
    simp only [idx_map]
    exact mapM_map_out _ _ _
  rw [this]
  cases ties.mapM (fun t => idx m t.1) with
  | error e => rfl
  | ok rows =>
    show (if ties.length = 1 then _ else if (negMat rows).length > 0 then _ else _) = Except.map negMat (if _ then _ else if _ then _ else _)
    have hl : (negMat rows).length = rows.length := by simp [negMat]
    rw [hl]
    split
    · rfl
    · split
      · cases idx h index with
        | error e => rfl
        | ok h0 =>
          cases idx h (index + chunk - 1) with
          | error e => rfl
          | ok h1 => exact extrapolateRows_neg _ _ _ _
      · rfl

/-- the state with some of its arrays negated -/
def negSt (b : Nat → Bool) (st : Interp α) : Interp α := { st with tieData := sgs b st.tieData }

theorem fillCols_neg (b : Nat → Bool) (st : Interp α) : fillCols (negSt b st) = (fillCols st).map (negSt b) := by
  unfold fillCols
  have hx : ∀ first last, (negSt b st).tieData.mapM (fun d => extrapolateCols (negSt b st) d first last)
      = (st.tieData.mapM (fun d => extrapolateCols st d first last)).map (sgs b) := by
    intro first last
    exact mapM_sgs (F := fun d => extrapolateCols st d first last) (fun m => extrapolateCols_neg st m first last) b st.tieData
  simp only [hx]
  have e1 : (negSt b st).colIdx = st.colIdx := rfl
  have e2 : (negSt b st).hcolIdx = st.hcolIdx := rfl
  rw [e1, e2]
  cases idx st.colIdx 0 with
  | error e => rfl
  | ok c0 =>
    cases idx st.hcolIdx 0 with
    | error e => rfl
    | ok h0 =>
      cases idxEnd st.colIdx 1 with
      | error e => rfl
      | ok c1 =>
        cases idxEnd st.hcolIdx 1 with
        | error e => rfl
        | ok h1 =>
          simp only [bind, Except.bind]
          cases st.tieData.mapM (fun d => extrapolateCols st d (!Arith.eq c0 h0) (!Arith.eq c1 h1)) with
          | error e => rfl
          | ok D => rfl

theorem rowChunk_neg (b : Nat → Bool) (st : Interp α) (chunk : Nat) (factor : α) (index : Nat) :
    rowChunk (negSt b st) chunk factor index = (rowChunk st chunk factor index).map (fun p => (sgs b p.1, p.2)) := by
  unfold rowChunk
  have hx : ∀ ties : List (Nat × α), (negSt b st).tieData.mapM (fun d => chunkData d ties (negSt b st).hrowIdx index chunk)
      = (st.tieData.mapM (fun d => chunkData d ties st.hrowIdx index chunk)).map (sgs b) := by
    intro ties
    exact mapM_sgs (F := fun d => chunkData d ties st.hrowIdx index chunk) (fun m => chunkData_neg m ties _ _ _) b st.tieData
  simp only [hx]
  have e1 : (negSt b st).rowIdx = st.rowIdx := rfl
  have e2 : (negSt b st).hrowIdx = st.hrowIdx := rfl
  rw [e1, e2]
  simp only [bind, Except.bind]
  cases st.tieData.mapM (fun d => chunkData d (tiesIn st.rowIdx (Arith.ofInt index / factor) (Arith.ofInt (index + chunk : Nat) / factor))
    st.hrowIdx index chunk) with
  | error e => rfl
  | ok D =>
    cases idx st.hrowIdx index with
    | error e => rfl
    | ok h0 =>
      cases idx st.hrowIdx (index + chunk - 1) with
      | error e => rfl
      | ok h1 => rfl

theorem stackPart_neg (b : Nat → Bool) (parts : List (List (Mat α) × List α)) (num : Nat) :
    stackPart (parts.map (fun p => (sgs b p.1, p.2))) num = (stackPart parts num).map (sg (b num)) := by
  unfold stackPart
  have h : ((parts.map (fun p => (sgs b p.1, p.2))).map (fun p => p.1.getD num [])).flatten
      = sg (b num) ((parts.map (fun p => p.1.getD num [])).flatten) := by
    rw [List.map_map]
    simp only [Function.comp_def, getD_sgs]
    cases b num
    · rfl
    · simp only [sg, if_true, negMat, List.map_flatten, List.map_map, Function.comp_def]
  simp only [h]
  have hb : (sg (b num) ((parts.map (fun p => p.1.getD num [])).flatten)).isEmpty = ((parts.map (fun p => p.1.getD num [])).flatten).isEmpty := by
    cases b num
    · rfl
    · simp only [sg, if_true, negMat, List.isEmpty_map]
  rw [hb]
  split <;> rfl

theorem fillRows_neg (b : Nat → Bool) (st : Interp α) : fillRows (negSt b st) = (fillRows st).map (negSt b) := by
  unfold fillRows
  have e1 : (negSt b st).rowIdx = st.rowIdx := rfl
  have e2 : (negSt b st).hrowIdx = st.hrowIdx := rfl
  have e3 : (negSt b st).chunk = st.chunk := rfl
  have e4 : (negSt b st).tieData.length = st.tieData.length := length_sgs _ _
  simp only [e1, e2, e3, e4]
  generalize (if st.chunk = 0 then st.hrowIdx.length else st.chunk) = chunk
  by_cases h0 : st.rowIdx.length = 0
  · simp only [if_pos h0]; rfl
  simp only [if_neg h0]
  by_cases h1 : chunk = 0
  · simp only [if_pos h1]; rfl
  simp only [if_neg h1]
  generalize (Arith.ofInt st.hrowIdx.length / Arith.ofInt st.rowIdx.length : α) = factor
  have hr : rowChunk (negSt b st) chunk factor = fun index => (rowChunk st chunk factor index).map (fun p => (sgs b p.1, p.2)) :=
    funext (fun index => rowChunk_neg b st chunk factor index)
  rw [hr, mapM_map_out]
  cases (rangeStep st.hrowIdx.length chunk).mapM (fun index => rowChunk st chunk factor index) with
  | error e => rfl
  | ok parts =>
    simp only [bind, Except.bind, Except.map]
    have hs : stackPart (parts.map (fun p => (sgs b p.1, p.2))) = fun num => (stackPart parts num).map (sg (b num)) :=
      funext (fun num => stackPart_neg b parts num)
    rw [hs, List.range_eq_range', mapM_range_sgs]
    cases (List.range' 0 st.tieData.length).mapM (fun num => stackPart parts num) with
    | error e => rfl
    | ok D =>
      simp only [Except.map, List.isEmpty_map, List.map_map, Function.comp_def, Nat.zero_add]
      cases parts.isEmpty <;> rfl

theorem fillBorders_neg (b : Nat → Bool) (args : List String) (st : Interp α) :
    fillBorders args (negSt b st) = ((fillBorders args st).1, negSt b (fillBorders args st).2) := by
  unfold fillBorders
  cases h : args.mapM (fillCase (α := α)) with
  | error e => rfl
  | ok toRun =>
    have hall : ∀ f ∈ toRun, ∀ st, f (negSt b st) = (f st).map (negSt b) := by
      induction args generalizing toRun with
      | nil =>
        cases h
        intro f hf
        cases hf
      | cons a args ih =>
        rw [List.mapM_cons] at h
        cases ha : fillCase (α := α) a with
        | error e => rw [ha] at h; cases h
        | ok g =>
          rw [ha] at h
          cases hr : args.mapM (fillCase (α := α)) with
          | error e => rw [hr] at h; cases h
          | ok gs =>
            rw [hr] at h
            cases h
            intro f hf st
            rcases List.mem_cons.1 hf with rfl | hf
            · unfold fillCase at ha
              split at ha
              · cases ha; exact fillRows_neg b st
              · split at ha
                · cases ha; exact fillCols_neg b st
                · cases ha
            · exact ih gs hr f hf st
    show runFills toRun (negSt b st) = _
    clear h
    induction toRun generalizing st with
    | nil => rfl
    | cons f fs ih =>
      simp only [runFills]
      rw [hall f List.mem_cons_self]
      cases f st with
      | error e => rfl
      | ok st' => exact ih st' (fun g hg => hall g (List.mem_cons_of_mem _ hg))

/-! ### splines -/

/-- the spline of negated data is the negated spline -/
def OddSpl (S : SplLib α) : Prop :=
  ∀ k xs ys x, ys.length = xs.length → k < xs.length → S k xs (ys.map (- ·)) x = -S k xs ys x

theorem oddSpl_linSeg : OddSpl (fun _ => linSeg : SplLib α) := by
  intro _ xs ys x hl hk
  have hk : 0 < xs.length := by omega
  clear * - hl hk
  induction xs generalizing ys with
  | nil => simp at hk
  | cons x0 xs ih =>
    rcases xs with _ | ⟨x1, xs⟩
    · rcases ys with _ | ⟨y, _ | _⟩ <;> simp at hl
      rfl
    · rcases ys with _ | ⟨y0, _ | ⟨y1, ys⟩⟩ <;> simp at hl
      simp only [List.map_cons, linSeg]
      split
      · rw [rmul, rmul, nadd]
      · exact ih (y1 :: ys) (by simp [hl]) (by simp)

theorem rectBivariate_neg {S : SplLib α} (hS : OddSpl S) (st : Interp α) (m : Mat α) :
    rectBivariate S st (negMat m) = (rectBivariate S st m).map negMat := by
  unfold rectBivariate
  have h1 : (negMat m).length = m.length := by simp [negMat]
  have h2 : (negMat m).all (fun r => r.length == st.colIdx.length) = m.all (fun r => r.length == st.colIdx.length) := by
    simp [negMat, List.all_map, Function.comp_def]
  rw [h1, h2]
  split
  · rename_i h
    simp only [Bool.and_eq_true, beq_iff_eq, decide_eq_true_eq, List.all_eq_true] at h
    obtain ⟨⟨⟨⟨⟨⟨_, hlen⟩, hrow⟩, hkx⟩, hky⟩, _⟩, _⟩ := h
    show Except.ok _ = Except.ok _
    congr 1
    unfold negMat
    rw [List.map_map]
    refine List.map_congr_left (fun x _ => ?_)
    simp only [Function.comp_def, List.map_map]
    refine List.map_congr_left (fun y _ => ?_)
    rw [← hS st.kx st.rowIdx _ _ (by rw [List.length_map]; exact hlen) hkx, List.map_map]
    congr 1
    refine List.map_congr_left (fun r hr => ?_)
    exact hS _ _ _ _ (hrow r hr) hky
  · rfl

theorem interp1d_neg {S : SplLib α} (hS : OddSpl S) (st : Interp α) (m : Mat α) :
    interp1d S st (negMat m) = (interp1d S st m).map negMat := by
  unfold interp1d
  unfold negMat
  rw [← mapM_map_out]
  congr 1
  funext cnt
  rw [idx_map]
  cases idx m cnt with
  | error e => rfl
  | ok r =>
    show splineRow S st (negRow r) = (splineRow S st r).map negRow
    unfold splineRow
    rw [List.length_map]
    split
    · rfl
    · split
      · rfl
      · split
        · show Except.ok _ = Except.ok _
          congr 1
          unfold negRow
          rw [List.map_map]
          refine List.map_congr_left (fun x _ => ?_)
          exact hS _ _ _ _ (by omega) (by omega)
        · rfl

theorem interpolate_neg {S : SplLib α} (hS : OddSpl S) (b : Nat → Bool) (st : Interp α) :
    interpolate S (negSt b st) = (interpolate S st).map (sgs b) := by
  unfold interpolate
  show (if arrayEqual st.hrowIdx st.rowIdx then (sgs b st.tieData).mapM (interp1d S st) else (sgs b st.tieData).mapM (rectBivariate S st)) = _
  split
  · exact mapM_sgs (interp1d_neg hS st) b st.tieData
  · exact mapM_sgs (rectBivariate_neg hS st) b st.tieData

/-! ### longitudes and latitudes -/

/-- the second array is negated -/
def onlyY (i : Nat) : Bool := i == 1

theorem geoTies_neg (lons lats : Mat α) : geoTies (negMat lons) lats = sgs onlyY (geoTies lons lats) := by
  simp only [geoTies, negMat, List.zipWith_map_left, lonlat2xyz_flip, mirrorPt, sgs, List.mapIdx_cons, List.mapIdx_nil, onlyY, sg]
  simp [List.map_zipWith]

/-- the result with negated longitudes -/
def negLon (p : Mat α × Mat α) : Mat α × Mat α := (negMat p.1, p.2)

theorem toLonLat_neg (out : List (Mat α)) : toLonLat (sgs onlyY out) = (toLonLat out).map negLon := by
  rcases out with _ | ⟨x, _ | ⟨y, _ | ⟨z, _ | ⟨w, ws⟩⟩⟩⟩
  · rfl
  · rfl
  · rfl
  swap
  · simp only [sgs_cons]
    rfl
  show Except.ok _ = Except.ok _
  have : List.zipWith (fun (a : List α) b => (a.map (- ·)).zip b) y z
      = (List.zipWith List.zip y z).map (List.map (fun p => (-p.1, p.2))) := by
    rw [List.map_zipWith]
    congr 1
    funext a b
    rw [List.zip_map_left]
    rfl
  have hg : ∀ g : α × α → α, List.zipWith (fun rx r => List.zipWith (fun a b => g (xyz2lonlat earthRadius defaultThr true (a, b))) rx r) x
      (List.zipWith List.zip (negMat y) z)
      = List.zipWith (fun rx r => List.zipWith (fun a b => g (-(xyz2lonlat earthRadius defaultThr true (a, b)).1,
          (xyz2lonlat earthRadius defaultThr true (a, b)).2)) rx r) x (List.zipWith List.zip y z) := by
    intro g
    unfold negMat
    rw [List.zipWith_map_left, this, List.zipWith_map_right]
    congr 1
    funext a b
    rw [List.zipWith_map_right]
    congr 1
    funext u v
    rw [← xyz2lonlat_flip]
    rfl
  congr 1
  refine Prod.ext ?_ ?_
  · refine (hg (·.1)).trans ?_
    show _ = negMat _
    simp only [negMat, List.map_zipWith]
  · exact hg (·.2)

theorem geoInterpXyz_neg {S : SplLib α} (hS : OddSpl S) (fill : List String) (st : Interp α) :
    geoInterpXyz S fill (negSt onlyY st) = (geoInterpXyz S fill st).map negLon := by
  unfold geoInterpXyz
  rw [fillBorders_neg]
  rcases fillBorders fill st with ⟨_ | _, st'⟩
  · rfl
  · simp only [interpolate_neg hS]
    cases interpolate S st' with
    | error e => rfl
    | ok out => exact toLonLat_neg out

end Verif.Mirror
