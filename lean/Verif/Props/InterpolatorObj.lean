import Verif.Proofs.InterpolatorObj
import Verif.Props.Interpolator
import Verif.Proofs.InterpolatorNum

/-!
# C88, C89, C90: `Interpolator` objects over time
-/

namespace Verif.Props
open Verif Verif.Spec Verif.Interpolator FP

section C88
variable {α : Type} [Arith α] (S : SplLib α) (junk : Nat → List α)

/-- **C88 (value)**: after any history of a new object, `interpolate` succeeds exactly if the interpolation of the present tie data
does; the list then holds it, and the tie data are as before. -/
theorem C88_value (st : Interp α) (ops : List IOp) :
    let o := irun S junk (IObj.init st) ops
    let r := istep S junk o .interpolate
    r.1.st = o.st ∧ (∀ out, interpolate S o.st = .ok out → r.2 = .ok () ∧ r.1.newData = out) ∧
      (∀ e, interpolate S o.st = .error e → r.2 = .error e) := by
  intro o r
  have hl : o.newData.length = o.st.tieData.length := irun_length S junk st ops
  simp only [r, istep, interpolate]
  split
  · refine ⟨rfl, fun out h => ?_, fun e h => ?_⟩
    · simp only [storeAll_ok _ _ hl h, and_self]
    · obtain ⟨_, _, _, _, _, _, h'⟩ := storeAll_error (fun d _ => leftRows S o.st junk d) _ hl h
      simp only [h']
  · refine ⟨rfl, fun out h => ?_, fun e h => ?_⟩
    · simp only [storeAll_ok _ _ hl h, and_self]
    · obtain ⟨_, _, _, _, _, _, h'⟩ := storeAll_error (fun _ old => old) _ hl h
      simp only [h']

/-- **C88 (kept)**: filling borders does not change a result returned before. -/
theorem C88_kept (o : IObj α) (ops : List IOp) (h : ∀ p ∈ ops, p ≠ .interpolate) : (irun S junk o ops).newData = o.newData := by
  induction ops generalizing o with
  | nil => rfl
  | cons p ops ih =>
    have := ih (istep S junk o p).1 (fun q hq => h q (List.mem_cons_of_mem _ hq))
    cases p with
    | fill args => exact this
    | interpolate => exact absurd rfl (h _ List.mem_cons_self)

/-- **C88 (again)**: calling `interpolate` again, any number of times, changes nothing. -/
theorem C88_again (st : Interp α) (ops : List IOp) (out : List (Mat α)) (n : Nat)
    (h : interpolate S (irun S junk (IObj.init st) ops).st = .ok out) :
    irun S junk (IObj.init st) (ops ++ List.replicate (n + 1) .interpolate) = ⟨(irun S junk (IObj.init st) ops).st, out⟩ := by
  have key : ∀ n, irun S junk (IObj.init st) (ops ++ List.replicate n .interpolate) =
      ⟨(irun S junk (IObj.init st) ops).st, if n = 0 then (irun S junk (IObj.init st) ops).newData else out⟩ := by
    intro n
    induction n with
    | zero => simp
    | succ n ih =>
      obtain ⟨h1, h2, _⟩ := C88_value S junk st (ops ++ List.replicate n .interpolate)
      rw [ih] at h1 h2
      have h3 := (h2 out h).2
      rw [List.replicate_succ', ← List.append_assoc, irun_snoc, ih]
      simp only [Nat.add_eq_zero_iff, one_ne_zero, and_false, if_false]
      generalize (istep S junk _ IOp.interpolate).1 = o at h1 h3 ⊢
      cases o
      simp only at h1 h3
      rw [h1, h3]
  simpa using key (n + 1)

/-- **C88 (shared)**: a result kept from an earlier call becomes the result of a later one, whatever happens between. -/
theorem C88_shared (st : Interp α) (before between : List IOp) (out : List (Mat α))
    (h : interpolate S (irun S junk (IObj.init st) (before ++ .interpolate :: between)).st = .ok out) :
    (irun S junk (irun S junk (IObj.init st) (before ++ [.interpolate])) (between ++ [.interpolate])).newData = out := by
  have h0 : irun S junk (irun S junk (IObj.init st) (before ++ [.interpolate])) (between ++ [.interpolate])
      = (istep S junk (irun S junk (IObj.init st) (before ++ .interpolate :: between)) .interpolate).1 := by
    simp [irun, List.foldl_append]
  rw [h0]
  exact ((C88_value S junk st (before ++ .interpolate :: between)).2.1 out h).2

/-- **C88 (failure)**: if `interpolate` fails at some array, the arrays before it are replaced in the list and those after it stay.
The entry of the failing array stays too, except in one-dimensional interpolation: there it is a new array, with the rows before
the failing one and uninitialised memory in the others. -/
theorem C88_failure (st : Interp α) (ops : List IOp) (e : Err)
    (h : interpolate S (irun S junk (IObj.init st) ops).st = .error e) :
    let o := irun S junk (IObj.init st) ops
    ∃ k < o.newData.length, ∃ ms x, interpolate S { o.st with tieData := o.st.tieData.take k } = .ok ms ∧
      (istep S junk o .interpolate).1.newData = ms ++ x :: o.newData.drop (k + 1) ∧
      (arrayEqual o.st.hrowIdx o.st.rowIdx = false → o.newData[k]? = some x) ∧
      (arrayEqual o.st.hrowIdx o.st.rowIdx = true → ∃ d, o.st.tieData[k]? = some d ∧ ∃ j < o.st.hrowIdx.length,
        x.length = o.st.hrowIdx.length ∧ (∀ i < j, ∃ r v, d[i]? = some r ∧ splineRow S o.st r = .ok v ∧ x[i]? = some v) ∧
        ∀ i, j ≤ i → i < o.st.hrowIdx.length → x[i]? = some (junk i)) := by
  intro o
  have hl : o.newData.length = o.st.tieData.length := irun_length S junk st ops
  change interpolate S o.st = .error e at h
  simp only [istep, interpolate] at h ⊢
  have lt : ∀ {k : Nat} {d : Mat α}, o.st.tieData[k]? = some d → k < o.newData.length := by
    intro k d h
    rw [hl]
    exact (List.getElem?_eq_some_iff.1 h).1
  split at h
  · rename_i hc
    obtain ⟨k, ms, d, h1, hd, h3, h4⟩ := storeAll_error (fun d _ => leftRows S o.st junk d) _ hl h
    refine ⟨k, lt h1, ms, leftRows S o.st junk d, ?_, ?_, ?_, fun _ => ⟨d, h1, leftRows_spec junk hd⟩⟩
    · rw [if_pos hc]; exact h3
    · rw [if_pos hc]; simp only [h4]
    · intro hf; rw [hc] at hf; cases hf
  · rename_i hc
    obtain ⟨k, ms, d, h1, _, h3, h4⟩ := storeAll_error (fun _ old => old) _ hl h
    refine ⟨k, lt h1, ms, o.newData.getD k [], ?_, ?_, ?_, fun ht => absurd ht hc⟩
    · rw [if_neg hc]; exact h3
    · rw [if_neg hc]; simp only [h4]
    · intro _
      rw [List.getD_eq_getElem?_getD, List.getElem?_eq_getElem (lt h1)]; rfl

end C88

section C88num

/-- two tie columns, at 1 and 2, and fine columns 0 to 3; the fine rows are not the tie rows -/
def edgeEx : Interp (FP ℚ) :=
  ⟨[val 0, val 1], [val 1, val 2], [val 0, val (1 / 2), val 1], [val 0, val 1, val 2, val 3], 0, [[[val 5, val 7], [val 5, val 7]]], 1, 1⟩

/-- **C88 (negation)**: a result is changed by a later call: `interpolate`, `fill_borders("x")`, `interpolate`. -/
theorem C88_negation (junk : Nat → List (FP ℚ)) : ∃ (st : Interp (FP ℚ)) (ops : List IOp),
    interpolate (fun _ => linSeg) st = .ok (irun (fun _ => linSeg) junk (IObj.init st) [.interpolate]).newData ∧
    (irun (fun _ => linSeg) junk (irun (fun _ => linSeg) junk (IObj.init st) [.interpolate]) ops).newData
      ≠ (irun (fun _ => linSeg) junk (IObj.init st) [.interpolate]).newData := by
  have e1 : interpolate (fun _ => linSeg) edgeEx = .ok [List.replicate 3 [val 5, val 5, val 7, val 7]] := by decide +kernel
  have f2 : interpolate (fun _ => linSeg) (fillBordersL ["x"] edgeEx).2 = .ok [List.replicate 3 [val 3, val 5, val 7, val 9]] := by
    decide +kernel
  have h1 := ((C88_value (fun _ => linSeg) junk edgeEx []).2.1 _ e1).2
  have r1 : (irun (fun _ => linSeg) junk (IObj.init edgeEx) [.interpolate]).newData
      = [List.replicate 3 [val 5, val 5, val 7, val 7]] := h1
  have h2 := C88_shared (fun _ => linSeg) junk edgeEx [] [.fill ["x"]] [List.replicate 3 [val 3, val 5, val 7, val 9]] (by
    have hs : (irun (fun _ => linSeg) junk (IObj.init edgeEx) ([] ++ IOp.interpolate :: [.fill ["x"]])).st = (fillBordersL ["x"] edgeEx).2 := by
      have h0 : (istep (fun _ => linSeg) junk (IObj.init edgeEx) .interpolate).1.st = edgeEx := (C88_value (fun _ => linSeg) junk edgeEx []).1
      simp only [irun, List.nil_append, List.foldl_cons, List.foldl_nil]
      generalize (istep (fun _ => linSeg) junk (IObj.init edgeEx) .interpolate).1 = o at h0 ⊢
      simp only [istep, h0]
    rw [hs, f2])
  refine ⟨edgeEx, [.fill ["x"]] ++ [.interpolate], by rw [e1, r1], ?_⟩
  rw [r1]
  simp only [List.nil_append] at h2
  rw [h2]
  decide +kernel

example (junk : Nat → List (FP ℚ)) := C88_shared (fun _ => linSeg) junk edgeEx [.fill ["x"]] [.fill ["y"], .fill ["z"]]

example (junk : Nat → List (FP ℚ)) :=
  (C88_value (fun _ => linSeg) junk edgeEx [.interpolate, .fill ["z"]]).2.1

/-- filling the borders leaves the kept result -/
example (junk : Nat → List (FP ℚ)) :
    (irun (fun _ => linSeg) junk (irun (fun _ => linSeg) junk (IObj.init edgeEx) [.interpolate]) [.fill ["x", "y"], .fill ["z"]]).newData
      = (irun (fun _ => linSeg) junk (IObj.init edgeEx) [.interpolate]).newData :=
  C88_kept _ junk _ _ (by simp)

/-- three calls -/
example (junk : Nat → List (FP ℚ)) : irun (fun _ => linSeg) junk (IObj.init edgeEx) ([] ++ List.replicate (2 + 1) .interpolate)
    = ⟨edgeEx, [List.replicate 3 [val 5, val 5, val 7, val 7]]⟩ :=
  C88_again (fun _ => linSeg) junk edgeEx [] _ 2
    (show interpolate (fun _ => linSeg) edgeEx = .ok [List.replicate 3 [val 5, val 5, val 7, val 7]] by decide +kernel)

/-- a second array that does not fit the positions: the first one is stored -/
example (junk : Nat → List (FP ℚ)) :=
  C88_failure (fun _ => linSeg) junk { edgeEx with tieData := [[[val 5, val 7], [val 5, val 7]], [[val 1]]] } [] .valueError
    (show interpolate (fun _ => linSeg) { edgeEx with tieData := [[[val 5, val 7], [val 5, val 7]], [[val 1]]] } = .error .valueError by
      decide +kernel)

end C88num

/-! ## C89 -/

section C89
variable {K : Type} [Field K] [LinearOrder K] [IsStrictOrderedRing K]

theorem select_eq {β : Type} [Arith β] (l : List β) (p : β → Bool) :
    ((List.range l.length).filter (fun i => p (el l i))).map (el l) = l.filter p := by
  have h : l = (List.range l.length).map (el l) := by
    apply List.ext_getElem
    · simp
    · intro i h1 h2
      simp [el, List.getD_eq_getElem?_getD, List.getElem?_eq_getElem h1]
  conv_rhs => rw [h, List.filter_map]
  rfl

/-- without chunks: the tie rows at positions from 0 below the number of tie rows -/
theorem ties_single (st : Interp (FP K)) (ts hs : List K) (hr : st.rowIdx = ts.map val) (hh : st.hrowIdx = hs.map val)
    (hc : st.chunk = 0) (h1 : ts ≠ []) (h2 : hs ≠ []) :
    (chunkTies st 0).map (el st.rowIdx) = (ts.filter (fun t : K => decide (0 ≤ t) && decide (t < (ts.length : K)))).map val := by
  have n0 : (ts.length : K) ≠ 0 := by simpa using h1
  have l0 : (hs.length : K) ≠ 0 := by simpa using h2
  unfold chunkTies tieRowsIn
  rw [select_eq st.rowIdx (fun x => Arith.le _ x && Arith.lt x _)]
  have e : effChunk st = hs.length := by simp [effChunk, hc, hh]
  rw [e, hr, hh, List.filter_map]
  simp only [List.length_map, Nat.zero_mul, Nat.zero_add, ofInt_eq, Int.cast_natCast, Nat.cast_zero, Int.cast_zero]
  rw [val_div_of_ne _ n0, val_div_of_ne _ (div_ne_zero l0 n0), val_div_of_ne _ (div_ne_zero l0 n0)]
  have e2 : (hs.length : K) / ((hs.length : K) / (ts.length : K)) = ts.length := by field_simp
  rw [zero_div, e2]
  rfl

/-- **C89 (negation)**: repeating `fill_borders("y")` spoils the object. Without chunks, with tie rows at positions from 0 below
their number (as in the presets) and increasing fine rows ending at a position from 0 below that number plus two, both fills
succeed and then `interpolate` fails, whatever the data and the splines. -/
theorem C89_negation (st : Interp (FP K)) (ts hs : List K) (hr : st.rowIdx = ts.map val) (hh : st.hrowIdx = hs.map val)
    (hc : st.chunk = 0) (h2 : 2 ≤ ts.length) (hT : ∀ t ∈ ts, 0 ≤ t ∧ t < ts.length) (hne : hs ≠ [])
    (hl : 0 ≤ hs.getLast hne ∧ hs.getLast hne < ts.length + 2) (hinc : hs.Pairwise (· < ·))
    (hd : ∀ d ∈ st.tieData, d.length = ts.length) (hD : st.tieData ≠ []) :
    ∃ s, fillBorders ["y", "y"] st = (.ok (), s) ∧ ∀ S, interpolate S s = .error .valueError := by
  have hts : ts ≠ [] := by rintro rfl; simp at h2
  have hL : 1 ≤ hs.length := List.length_pos_iff.2 hne
  have hfull : ts.filter (fun t : K => decide (0 ≤ t) && decide (t < (ts.length : K))) = ts := by
    rw [List.filter_eq_self]; intro t ht; simp [hT t ht]
  have ech : effChunk st = hs.length := by simp [effChunk, hc, hh]
  have t1 := ties_single st ts hs hr hh hc hts hne
  rw [hfull] at t1
  have hn1 : (chunkTies st 0).length = ts.length := by
    have := congrArg List.length t1; simpa using this
  obtain ⟨s1, f1, r1, d1, q1, _⟩ := C10_fill_rows st 1 le_rfl (by omega) (by rw [ech, hh]; simp)
    (fun d h => by rw [hd d h, hr]; simp) (by intro c hc'; obtain rfl : c = 0 := (by omega); omega)
  have f1' := fillRows_ok (st := st) (m := 1) le_rfl (by change 1 ≤ effChunk st; omega) (by change _ = 1 * effChunk st; rw [ech, hh]; simp)
    (by rw [hr]; simpa using hts) (fun d h => by rw [hd d h, hr]; simp)
    (by intro c hc'; obtain rfl : c = 0 := (by omega); change 2 ≤ (chunkTies st 0).length; omega)
  obtain rfl : s1 = rowsFilled st 1 := by rw [f1] at f1'; injection f1'
  have hlast : el st.hrowIdx ((0 + 1) * effChunk st - 1) = val (hs.getLast hne) := by
    rw [ech, hh, el, List.getD_eq_getElem?_getD, List.getElem?_map, List.getLast_eq_getElem, Nat.zero_add, Nat.one_mul,
      List.getElem?_eq_getElem (by omega)]
    rfl
  have hfirst : el st.hrowIdx (0 * effChunk st) = val (hs.head hne) := by
    rw [hh, el, Nat.zero_mul, List.getD_eq_getElem?_getD, List.getElem?_map, List.head_eq_getElem,
      List.getElem?_eq_getElem (by omega)]
    rfl
  have rr : (rowsFilled st 1).rowIdx = (hs.head hne :: ts ++ [hs.getLast hne]).map val := by
    rw [r1]
    simp only [List.range_one, List.flatMap_cons, List.flatMap_nil, List.append_nil]
    rw [t1, hlast, hfirst]
    simp
  have t2 := ties_single (rowsFilled st 1) (hs.head hne :: ts ++ [hs.getLast hne]) hs rr hh hc (by simp) hne
  have hsel : ∃ pre : List K, (hs.head hne :: ts ++ [hs.getLast hne]).filter (fun t : K => decide (0 ≤ t) &&
      decide (t < (((hs.head hne :: ts ++ [hs.getLast hne]).length : Nat) : K))) = pre ++ ts ++ [hs.getLast hne] := by
    have hlen : (((hs.head hne :: ts ++ [hs.getLast hne]).length : Nat) : K) = ts.length + 2 := by
      simp; ring
    rw [hlen, List.cons_append, ← List.singleton_append, List.filter_append, List.filter_append]
    refine ⟨List.filter (fun t : K => decide (0 ≤ t) && decide (t < (ts.length : K) + 2)) [hs.head hne], ?_⟩
    have a1 : ts.filter (fun t => decide (0 ≤ t) && decide (t < (ts.length : K) + 2)) = ts := by
      rw [List.filter_eq_self]; intro t ht
      have := hT t ht
      simp only [Bool.and_eq_true, decide_eq_true_eq]
      exact ⟨this.1, by linarith [this.2]⟩
    have a2 : List.filter (fun t : K => decide (0 ≤ t) && decide (t < (ts.length : K) + 2)) [hs.getLast hne] = [hs.getLast hne] := by
      rw [List.filter_cons_of_pos (by simp [hl.1, hl.2]), List.filter_nil]
    rw [a1, a2, List.append_assoc]
  obtain ⟨pre, hpre⟩ := hsel
  rw [hpre] at t2
  have ech2 : effChunk (rowsFilled st 1) = hs.length := by
    change (if st.chunk = 0 then st.hrowIdx.length else st.chunk) = _; simp [hc, hh]
  have hn2 : 2 ≤ (chunkTies (rowsFilled st 1) 0).length := by
    have := congrArg List.length t2
    simp only [List.length_map, List.length_append] at this
    omega
  obtain ⟨s2, f2, r2, d2, _, _⟩ := C10_fill_rows (rowsFilled st 1) 1 le_rfl (by omega)
    (by rw [ech2]; change st.hrowIdx.length = _; rw [hh]; simp) q1 (by intro c hc'; obtain rfl : c = 0 := (by omega); exact hn2)
  have f2' := fillRows_ok (st := rowsFilled st 1) (m := 1) le_rfl (by change 1 ≤ effChunk (rowsFilled st 1); omega)
    (by change st.hrowIdx.length = 1 * effChunk (rowsFilled st 1); rw [ech2, hh]; simp)
    (by rw [rr]; simp) (fun d h => (q1 d h).ge)
    (by intro c hc'; obtain rfl : c = 0 := (by omega); exact hn2)
  have es2 : s2 = rowsFilled (rowsFilled st 1) 1 := by rw [f2] at f2'; injection f2'
  have rr2 : s2.rowIdx = (hs.head hne :: pre ++ ts ++ [hs.getLast hne] ++ [hs.getLast hne]).map val := by
    rw [r2]
    simp only [List.range_one, List.flatMap_cons, List.flatMap_nil, List.append_nil]
    rw [t2]
    have h1' : el (rowsFilled st 1).hrowIdx ((0 + 1) * effChunk (rowsFilled st 1) - 1) = val (hs.getLast hne) := by
      rw [ech2, ← ech]; exact hlast
    have h2' : el (rowsFilled st 1).hrowIdx (0 * effChunk (rowsFilled st 1)) = val (hs.head hne) := by
      rw [ech2, ← ech]; exact hfirst
    rw [h1', h2']
    simp
  have hnot : ¬ (hs.head hne :: pre ++ ts ++ [hs.getLast hne] ++ [hs.getLast hne]).Pairwise (· < ·) := by
    intro h
    rw [List.pairwise_append] at h
    exact absurd (h.2.2 (hs.getLast hne) (by simp) (hs.getLast hne) (by simp)) (lt_irrefl _)
  have hh2 : s2.hrowIdx = hs.map val := by rw [es2]; exact hh
  refine ⟨s2, ?_, fun S => ?_⟩
  · have : ["y", "y"].mapM (fillCase (α := FP K)) = .ok [fillRows, fillRows] := rfl
    unfold fillBorders
    rw [this]
    simp only [runFills, f1, f2]
  · have hD2 : s2.tieData ≠ [] := by
      rw [d2, d1]; simpa using hD
    unfold interpolate
    rw [hh2, rr2]
    have hae : ¬ arrayEqual (hs.map val) ((hs.head hne :: pre ++ ts ++ [hs.getLast hne] ++ [hs.getLast hne]).map val) = true := by
      rw [arrayEqual_val]
      intro h
      exact hnot (h ▸ hinc)
    rw [if_neg hae]
    have hrect : ∀ d, rectBivariate S s2 d = .error .valueError := by
      intro d
      unfold rectBivariate
      have : strictInc s2.rowIdx = false := by
        rw [rr2, Bool.eq_false_iff]
        intro h
        exact hnot ((strictInc_val _).1 h)
      rw [this]
      simp
    cases ht : s2.tieData with
    | nil => exact absurd ht hD2
    | cons d ds =>
      rw [List.mapM_cons, hrect d]; rfl

/-- two tie rows in ten fine rows from -2/5 to 7/5, as in the presets from 5 km to 1 km -/
example (a b c d : FP ℚ) : ∃ s, fillBorders ["y", "y"] (⟨[val 0, val 1], [val 0, val 1],
    [val (-2/5), val (-1/5), val 0, val (1/5), val (2/5), val (3/5), val (4/5), val 1, val (6/5), val (7/5)], [val 0, val 1], 0,
    [[[a, b], [c, d]]], 1, 1⟩ : Interp (FP ℚ)) = (.ok (), s) ∧ ∀ S, interpolate S s = .error .valueError :=
  C89_negation _ [0, 1] [-2/5, -1/5, 0, 1/5, 2/5, 3/5, 4/5, 1, 6/5, 7/5] rfl rfl rfl (by decide) (by norm_num) (by simp)
    (by norm_num) (by norm_num) (by simp) (by simp)

end C89

/-! ## C90 -/

section C90
variable {α : Type} [Arith α]

/-- **C90 (outcome)**: following the arrays a failing fill leaves changes no outcome, and no object left by a call that succeeds:
the theorems on `fillBorders` (C09 to C14) hold of `fillBordersL`. -/
theorem C90_outcome (args : List String) (st : Interp α) : (fillBordersL args st).1 = (fillBorders args st).1 ∧
    ((fillBorders args st).1 = .ok () → fillBordersL args st = fillBorders args st) :=
  ⟨(fillBordersL_spec args st).1, (fillBordersL_spec args st).2.1⟩

/-- **C90 (rows)**: a failing `fill_borders("y")` leaves the object as it was. -/
theorem C90_rows (st : Interp α) {e : Err} (h : (fillBordersL ["y"] st).1 = .error e) : (fillBordersL ["y"] st).2 = st := by
  have hr : fillBordersL ["y"] st = match fillRowsL st with
    | (.ok (), st') => (.ok (), st')
    | (.error e, st') => (.error e, st') := rfl
  rw [fillRowsL_eq] at hr
  rw [hr] at h ⊢
  cases hf : fillRows st with
  | ok s => rw [hf] at h; cases h
  | error e' => rfl

/-- **C90 (columns)**: a failing `fill_borders("x")` leaves the object as it was if the tie arrays have one shape. -/
theorem C90_cols (st : Interp α) (n w : Nat) (hs : ∀ d ∈ st.tieData, d.length = n ∧ ∀ r ∈ d, r.length = w) {e : Err}
    (h : (fillBordersL ["x"] st).1 = .error e) : (fillBordersL ["x"] st).2 = st := by
  have hr : fillBordersL ["x"] st = match fillColsL st with
    | (.ok (), st') => (.ok (), st')
    | (.error e, st') => (.error e, st') := rfl
  rw [fillColsL_eq ⟨n, w, hs⟩] at hr
  rw [hr] at h ⊢
  cases hf : fillCols st with
  | ok s => rw [hf] at h; cases h
  | error e' => rfl

/-- **C90 (several)**: for tie arrays of one shape, a failing call with any dimensions leaves the object as a successful call with
the dimensions before the failing one would. -/
theorem C90_several (args : List String) (st : Interp α) (n w : Nat) (hs : ∀ d ∈ st.tieData, d.length = n ∧ ∀ r ∈ d, r.length = w)
    {e : Err} (h : (fillBordersL args st).1 = .error e) :
    ∃ k < args.length, fillBordersL (args.take k) st = (.ok (), (fillBordersL args st).2) := by
  rw [(fillBordersL_spec args st).2.2.1 ⟨n, w, hs⟩] at h ⊢
  have key : ∃ k < args.length, fillBorders (args.take k) st = (.ok (), (fillBorders args st).2) := by
    unfold fillBorders at h ⊢
    cases hm : args.mapM (fillCase (α := α)) with
    | error e' =>
      refine ⟨0, ?_, ?_⟩
      · cases args with
        | nil => cases hm
        | cons a l => simp
      · rfl
    | ok fs =>
      rw [hm] at h
      obtain ⟨k, hk, hr⟩ := runFills_stop h
      refine ⟨k, by rwa [← mapM_length hm], ?_⟩
      rw [mapM_take hm k]
      exact hr
  obtain ⟨k, hk, hr⟩ := key
  exact ⟨k, hk, by rw [(fillBordersL_spec _ st).2.2.1 ⟨n, w, hs⟩, hr]⟩

/-- two arrays, the second with one column -/
def twoEx : Interp (FP ℚ) :=
  ⟨[val 0, val 1], [val 1, val 2], [val 0, val (1 / 2), val 1], [val 0, val 1, val 2, val 3], 0,
    [[[val 5, val 7], [val 5, val 7]], [[val 1], [val 2]]], 1, 1⟩

/-- **C90 (negation)**: a failing fill can change the object, with arrays of different widths in `fill_borders("x")`, and with one
array in `fill_borders("x", "y")`; in the first case `interpolate` then fails for the first array alone too. -/
theorem C90_negation :
    (∃ st : Interp (FP ℚ), (fillBordersL ["x"] st).1 = .error .indexError ∧ (fillBordersL ["x"] st).2 ≠ st ∧
      interpolate (fun _ => linSeg) { st with tieData := st.tieData.take 1 } ≠ .error .valueError ∧
      interpolate (fun _ => linSeg) { (fillBordersL ["x"] st).2 with tieData := (fillBordersL ["x"] st).2.tieData.take 1 }
        = .error .valueError) ∧
    (∃ st : Interp (FP ℚ), st.tieData.length = 1 ∧ (fillBordersL ["x", "y"] st).1 = .error .indexError ∧
      (fillBordersL ["x", "y"] st).2 ≠ st) := by
  refine ⟨⟨twoEx, by decide +kernel, ?_, by decide +kernel, by decide +kernel⟩,
    ⟨{ edgeEx with rowIdx := [val 0, val 5] }, rfl, by decide +kernel, ?_⟩⟩
  · intro h
    have := congrArg Interp.tieData h
    revert this
    decide +kernel
  · intro h
    have := congrArg Interp.tieData h
    revert this
    decide +kernel

/-- one tie row below the limit: the fill fails and changes nothing -/
example : (fillBordersL ["y"] { edgeEx with rowIdx := [val 0, val 5] }).2 = { edgeEx with rowIdx := [val 0, val 5] } :=
  C90_rows _ (e := .indexError) (by decide +kernel)

/-- a tie position that is missing -/
example : (fillBordersL ["x"] { edgeEx with colIdx := [val 1] }).2 = { edgeEx with colIdx := [val 1] } :=
  C90_cols _ 2 2 (by decide) (e := .valueError) (by decide +kernel)

/-- the columns are filled, the rows are not -/
example : ∃ k < 2, fillBordersL (["x", "y"].take k) { edgeEx with rowIdx := [val 0, val 5] }
    = (.ok (), (fillBordersL ["x", "y"] { edgeEx with rowIdx := [val 0, val 5] }).2) :=
  C90_several ["x", "y"] _ 2 2 (by decide) (e := .indexError) (by decide +kernel)

end C90

example : (fillBordersL ["x", "y"] { edgeEx with rowIdx := [val 0, val 5] }).1 = .error .indexError :=
  (C90_outcome ["x", "y"] { edgeEx with rowIdx := [val 0, val 5] }).1.trans (by decide +kernel)

end Verif.Props
