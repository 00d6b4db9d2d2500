import Verif.Props.Interpolator
import Verif.Proofs.InterpolatorNum

/-!
# C13, C14: interpolation on the filled grid
-/

namespace Verif.Props
open Verif Verif.Interpolator Verif.Spec FP

/-! ## C13 -/

section C13shape
variable {α : Type} [Arith α]

/-- **C13** (shape, any arithmetic, any splines): whatever `interpolate` returns has one array per data array, one row
per fine row and one column per fine column. -/
theorem C13_shape (S : SplLib α) (st : Interp α) (out : List (Mat α)) (h : interpolate S st = .ok out) :
    out.length = st.tieData.length ∧
      ∀ m ∈ out, m.length = st.hrowIdx.length ∧ ∀ r ∈ m, r.length = st.hcolIdx.length := by
  unfold interpolate at h
  split at h
  · refine ⟨mapM_length h, ?_⟩
    intro m hm
    obtain ⟨d, _, hm⟩ := mapM_forall h m hm
    unfold interp1d at hm
    refine ⟨by simpa using mapM_length hm, ?_⟩
    intro r hr
    obtain ⟨cnt, _, hr⟩ := mapM_forall hm r hr
    cases hd : idx d cnt with
    | error e => rw [hd] at hr; cases hr
    | ok v =>
      rw [hd] at hr
      change splineRow S st v = .ok r at hr
      unfold splineRow at hr
      split at hr
      · cases hr
      · split at hr
        · cases hr
        · split at hr
          · cases hr; simp
          · cases hr
  · refine ⟨mapM_length h, ?_⟩
    intro m hm
    obtain ⟨d, _, hm⟩ := mapM_forall h m hm
    unfold rectBivariate at hm
    split at hm
    · cases hm
      refine ⟨by simp, ?_⟩
      intro r hr
      obtain ⟨x, _, rfl⟩ := List.mem_map.mp hr
      simp
    · cases hm

example (out : List (Mat (FP ℚ))) (h : interpolate (fun _ => linSeg (α := FP ℚ)) ⟨[val 0, val 2, val 4], [val 1, val 3],
      [val 0, val 1, val 4], [val 1, val 2, val 3, val 3], 0, [[[val 5, val 6], [val 7, bad], [val 0, val 2]]], 1, 1⟩ = .ok out) :
    out.length = 1 ∧ ∀ m ∈ out, m.length = 3 ∧ ∀ r ∈ m, r.length = 4 := C13_shape _ _ out h

end C13shape

section C13
variable {K : Type} [Field K] [LinearOrder K] [IsStrictOrderedRing K]

/-- the splines of order `k` take the given values at the given positions -/
def Interpolating (S : SplLib (FP K)) (k : Nat) : Prop :=
  ∀ ks ys : List K, ks.Pairwise (· < ·) → ys.length = ks.length → k < ks.length →
    ∀ i (h : i < ks.length) (h' : i < ys.length), S k (ks.map val) (ys.map val) (val ks[i]) = val ys[i]

omit [IsStrictOrderedRing K] in
/-- the first-order spline of the model is such a spline -/
theorem interpolating_linSeg : Interpolating (fun _ => linSeg (α := FP K)) 1 := by
  intro ks ys h hl hk i hi _
  exact linSeg_node ks h ys hl hk i hi

/-- a matrix of numbers -/
def numMat (m : List (List K)) : Mat (FP K) := m.map (·.map val)

/-- **C13** (tie points): on strictly increasing tie positions with matching data, sorted fine positions and orders the
number of tie points allows, `interpolate` succeeds, and wherever a fine row and a fine column coincide with a tie row
and a tie column the returned value is the tie value. -/
theorem C13_tie_points (S : SplLib (FP K)) (st : Interp (FP K)) (rs cs hs hc : List K) (D : List (List (List K)))
    (hr : st.rowIdx = rs.map val) (hcol : st.colIdx = cs.map val) (hh : st.hrowIdx = hs.map val)
    (hhc : st.hcolIdx = hc.map val) (hD : st.tieData = D.map numMat)
    (hrs : rs.Pairwise (· < ·)) (hcs : cs.Pairwise (· < ·)) (hhs : hs.Pairwise (· ≤ ·)) (hhcs : hc.Pairwise (· ≤ ·))
    (hrows : ∀ d ∈ D, d.length = rs.length) (hcols : ∀ d ∈ D, ∀ r ∈ d, r.length = cs.length)
    (hkx : st.kx < rs.length) (hky : st.ky < cs.length)
    (hSx : Interpolating S st.kx) (hSy : Interpolating S st.ky) :
    ∃ out, interpolate S st = .ok out ∧ ∀ n (hn : n < D.length) a b i j (ha : a < hs.length) (hb : b < hc.length)
      (hi : i < rs.length) (hj : j < cs.length) (v : K), hs[a] = rs[i] → hc[b] = cs[j] →
      (∃ h1 : i < D[n].length, ∃ h2 : j < D[n][i].length, D[n][i][j] = v) →
      el (row (out.getD n []) a) b = val v := by
  have hsr : strictInc st.rowIdx = true := by rw [hr, strictInc_val]; exact hrs
  have hsc : strictInc st.colIdx = true := by rw [hcol, strictInc_val]; exact hcs
  have hwr : weakInc st.hrowIdx = true := by rw [hh, weakInc_val]; exact hhs
  have hwc : weakInc st.hcolIdx = true := by rw [hhc, weakInc_val]; exact hhcs
  -- the value of a row of the data at a tie column
  have hrowval : ∀ d ∈ D, ∀ r ∈ d, ∀ j (h2 : j < r.length) (hj : j < cs.length),
      S st.ky (cs.map val) (r.map val) (val cs[j]) = val r[j] := by
    intro d hd r hr' j h2 hj
    exact hSy cs r hcs (hcols d hd r hr') hky j hj h2
  by_cases heq : arrayEqual st.hrowIdx st.rowIdx = true
  · have hE : hs = rs := by rw [hh, hr, arrayEqual_val] at heq; exact heq
    refine ⟨st.tieData.map (oneVal S st), ?_, ?_⟩
    · unfold interpolate
      rw [if_pos heq]
      refine mapM_ok (fun d hd => ?_)
      rw [hD] at hd
      obtain ⟨d', hd', rfl⟩ := List.mem_map.mp hd
      refine interp1d_ok S st _ ?_ ?_ ?_ hsc
      · simp [hh, numMat, hE, hrows d' hd']
      · intro r hr'
        obtain ⟨r', hr'', rfl⟩ := List.mem_map.mp hr'
        simp [hcol, hcols d' hd' r' hr'']
      · simpa [hcol] using hky
    · intro n hn a b i j ha hb hi hj v e1 e2 ⟨h1, h2, hv⟩
      subst hE
      have hai : a = i := (List.Nodup.getElem_inj_iff (hrs.imp ne_of_lt)).mp e1
      subst hai
      have : row ((st.tieData.map (oneVal S st)).getD n []) a
          = hc.map (fun y => S st.ky (cs.map val) (D[n][a].map val) (val y)) := by
        simp [row, hD, hn, oneVal, hh, ha, hhc, hcol, numMat, h1]
      rw [this]
      have : el (hc.map (fun y => S st.ky (cs.map val) (D[n][a].map val) (val y))) b
          = S st.ky (cs.map val) (D[n][a].map val) (val hc[b]) := by simp [el, hb]
      rw [this, e2, hrowval D[n] (List.getElem_mem hn) D[n][a] (List.getElem_mem h1) j h2 hj, hv]
  · refine ⟨st.tieData.map (rectVal S st), ?_, ?_⟩
    · unfold interpolate
      rw [if_neg heq]
      refine mapM_ok (fun d hd => ?_)
      rw [hD] at hd
      obtain ⟨d', hd', rfl⟩ := List.mem_map.mp hd
      refine rectBivariate_ok S st _ hsr hsc ?_ ?_ ?_ ?_ hwr hwc
      · simp [numMat, hr, hrows d' hd']
      · intro r hr'
        obtain ⟨r', hr'', rfl⟩ := List.mem_map.mp hr'
        simp [hcol, hcols d' hd' r' hr'']
      · simpa [hr] using hkx
      · simpa [hcol] using hky
    · intro n hn a b i j ha hb hi hj v e1 e2 ⟨h1, h2, hv⟩
      have hlen := hrows D[n] (List.getElem_mem hn)
      have : row ((st.tieData.map (rectVal S st)).getD n []) a
          = hc.map (fun y => S st.kx (rs.map val) ((numMat D[n]).map
              (fun r => S st.ky (cs.map val) r (clamp (cs.map val) (val y)))) (clamp (rs.map val) (val hs[a]))) := by
        simp [row, hD, hn, rectVal, hh, ha, hhc, hcol, hr]
      rw [this]
      have : ∀ f : K → FP K, el (hc.map f) b = f hc[b] := by intro f; simp [el, hb]
      rw [this, e1, e2, clamp_node hrs (List.getElem_mem hi), clamp_node hcs (List.getElem_mem hj)]
      have hj' : ∀ r ∈ D[n], j < r.length := by
        intro r hr'; rw [hcols D[n] (List.getElem_mem hn) r hr']; exact hj
      have : (numMat D[n]).map (fun r => S st.ky (cs.map val) r (val cs[j]))
          = (D[n].map (fun r => r.getD j 0)).map val := by
        unfold numMat
        rw [List.map_map, List.map_map]
        refine List.map_congr_left (fun r hr' => ?_)
        simp only [Function.comp]
        rw [hrowval D[n] (List.getElem_mem hn) r hr' j (hj' r hr') hj]
        simp [hj' r hr']
      rw [this, hSx rs _ hrs (by simpa using hlen) hkx i hi (by simpa using h1)]
      simp [h2, hv]

/-- three tie rows, two tie columns, five by four fine points, first-order splines -/
example := C13_tie_points (fun _ => linSeg (α := FP ℚ))
  ⟨[val 0, val 2, val 4], [val 1, val 3], [val 0, val 1, val 2, val 3, val 4], [val 0, val 1, val 2, val 3], 0,
    [[[val 5, val 6], [val 7, val 1], [val 0, val 2]]], 1, 1⟩
  [0, 2, 4] [1, 3] [0, 1, 2, 3, 4] [0, 1, 2, 3] [[[5, 6], [7, 1], [0, 2]]] rfl rfl rfl rfl rfl
  (by simp; norm_num) (by simp) (by simp; norm_num) (by simp; norm_num) (by simp) (by simp) (by simp) (by simp)
  interpolating_linSeg interpolating_linSeg

end C13

/-! ## C14 -/

section C14
variable {K : Type} [Field K] [LinearOrder K] [IsStrictOrderedRing K]

/-- the values of the affine function `t.1 + t.2.1 * p + t.2.2 * q` at the positions `rs × cs` -/
def affMat (t : K × K × K) (rs cs : List K) : Mat (FP K) :=
  rs.map (fun p => cs.map (fun q => val (t.1 + t.2.1 * p + t.2.2 * q)))

theorem bracketed_affine (t : K × K × K) (rs cs : List K) (hrs : rs.Nodup) (sel : List Nat)
    (hsel : ∀ i ∈ sel, i < rs.length) (hnd : sel.Nodup) (h2 : 2 ≤ sel.length) (h0 h1 : K) :
    bracketed (rs.map val) (affMat t rs cs) sel (val h0) (val h1)
      = affMat t ([h0] ++ sel.map (fun i => rs.getD i 0) ++ [h1]) cs := by
  have hel : ∀ i < rs.length, el (rs.map (val : K → FP K)) i = val (rs.getD i 0) := by
    intro i hi; simp [el, hi]
  have hrow : ∀ i < rs.length, row (affMat t rs cs) i
      = cs.map (fun q => val (t.1 + t.2.1 * rs.getD i 0 + t.2.2 * q)) := by
    intro i hi; simp [row, affMat, hi]
  have hmem : ∀ n < sel.length, sel.getD n 0 < rs.length := by
    intro n hn
    have : sel.getD n 0 = sel[n] := by simp [hn]
    rw [this]; exact hsel _ (List.getElem_mem hn)
  have hneq : ∀ a b (_ : a < sel.length) (_ : b < sel.length), a ≠ b →
      rs.getD (sel.getD a 0) 0 ≠ rs.getD (sel.getD b 0) 0 := by
    intro a b ha hb hab h
    have ha' := hmem a ha
    have hb' := hmem b hb
    rw [getD_of_lt _ _ ha', getD_of_lt _ _ hb', List.Nodup.getElem_inj_iff hrs] at h
    rw [getD_of_lt _ _ ha, getD_of_lt _ _ hb, List.Nodup.getElem_inj_iff hnd] at h
    exact hab h
  have hline : ∀ a b (_ : a < sel.length) (_ : b < sel.length) (_ : a ≠ b) (h : K),
      List.zipWith (fun u v => extrapolated (el (rs.map (val : K → FP K)) (sel.getD a 0))
        (el (rs.map val) (sel.getD b 0)) u v (val h)) (row (affMat t rs cs) (sel.getD a 0))
        (row (affMat t rs cs) (sel.getD b 0)) = cs.map (fun q => val (t.1 + t.2.1 * h + t.2.2 * q)) := by
    intro a b ha hb hab h
    rw [hel _ (hmem a ha), hel _ (hmem b hb), hrow _ (hmem a ha), hrow _ (hmem b hb), zipWith_map_map]
    refine List.map_congr_left (fun q _ => ?_)
    rw [extrapolated_val (hneq a b ha hb hab)]
    congr 1
    rw [lineThrough_unique (hneq a b ha hb hab) _ _ (t.1 + t.2.2 * q) t.2.1 (by ring) (by ring)]
    ring
  unfold bracketed
  extract_lets i0 i1 j0 j1
  rw [hline 0 1 (by omega) (by omega) (by omega), hline (sel.length - 2) (sel.length - 1) (by omega) (by omega) (by omega)]
  have : sel.map (row (affMat t rs cs)) = affMat t (sel.map (fun i => rs.getD i 0)) cs := by
    simp only [affMat, List.map_map]
    refine List.map_congr_left (fun i hi => ?_)
    exact hrow i (hsel i hi)
  rw [this]
  simp [affMat]

/-- the column positions after `fill_borders("x")` -/
def edgeCols (cs hc : List K) : List K :=
  (if cs.getD 0 0 = hc.getD 0 0 then [] else [hc.getD 0 0]) ++ cs
    ++ (if cs.getD (cs.length - 1) 0 = hc.getD (hc.length - 1) 0 then [] else [hc.getD (hc.length - 1) 0])

theorem fillCols_affine (st : Interp (FP K)) (rs cs hc : List K) (coef : List (K × K × K))
    (hcol : st.colIdx = cs.map val) (hhc : st.hcolIdx = hc.map val)
    (hD : st.tieData = coef.map (fun t => affMat t rs cs)) (hcs : cs.Nodup) (h2 : 2 ≤ cs.length)
    (h1 : 1 ≤ hc.length) :
    fillCols st = .ok { st with colIdx := (edgeCols cs hc).map val,
                                tieData := coef.map (fun t => affMat t rs (edgeCols cs hc)) } := by
  have hdata : ∀ d ∈ st.tieData, ∀ r ∈ d, r.length = st.colIdx.length := by
    rw [hD, hcol]
    intro d hd r hr
    obtain ⟨t, _, rfl⟩ := List.mem_map.mp hd
    obtain ⟨p, _, rfl⟩ := List.mem_map.mp hr
    simp
  have hel : ∀ (f : K → FP K) (l : List K) i, i < l.length → el (l.map f) i = f (l.getD i 0) := by
    intro f l i hi; simp [el, hi]
  have helE : ∀ (f : K → FP K) (l : List K) k, 1 ≤ k → k ≤ l.length → elEnd (l.map f) k = f (l.getD (l.length - k) 0) := by
    intro f l k hk hi
    have := hel f l (l.length - k) (by omega)
    simpa [el, elEnd] using this
  have hneq : ∀ a b (_ : a < cs.length) (_ : b < cs.length), a ≠ b → cs.getD a 0 ≠ cs.getD b 0 := by
    intro a b ha hb hab h
    rw [getD_of_lt _ _ ha, getD_of_lt _ _ hb, List.Nodup.getElem_inj_iff hcs] at h
    exact hab h
  have nf : needFirst st = !decide (cs.getD 0 0 = hc.getD 0 0) := by
    rw [needFirst, hcol, hhc, hel _ _ _ (by omega), hel _ _ _ (by omega), eq_val]
  have nl : needLast st = !decide (cs.getD (cs.length - 1) 0 = hc.getD (hc.length - 1) 0) := by
    rw [needLast, hcol, hhc, helE _ _ _ (by omega) (by omega), helE _ _ _ (by omega) (by omega), eq_val]
  have hedge : ∀ f : K → FP K, withEdges (needFirst st) (needLast st) (f (hc.getD 0 0)) (f (hc.getD (hc.length - 1) 0))
      (cs.map f) = (edgeCols cs hc).map f := by
    intro f
    rw [nf, nl]
    unfold withEdges edgeCols
    by_cases a : cs.getD 0 0 = hc.getD 0 0 <;> by_cases b : cs.getD (cs.length - 1) 0 = hc.getD (hc.length - 1) 0 <;>
      simp only [a, b, decide_true, decide_false, Bool.not_true, Bool.not_false, if_true, if_false, List.map_append,
        List.map_cons, List.map_nil, Bool.false_eq_true]
  rw [fillCols_ok ⟨by rw [hcol]; simpa using h2, by rw [hhc]; simpa using h1, hdata⟩]
  have hc' : (colsFilled st).colIdx = (edgeCols cs hc).map val := by
    rw [← hedge val]
    simp only [colsFilled]
    rw [hcol, hhc, hel _ _ _ (by omega), helE _ _ _ (by omega) (by omega)]
  have hd' : (colsFilled st).tieData = coef.map (fun t => affMat t rs (edgeCols cs hc)) := by
    simp only [colsFilled]
    rw [hD, List.map_map]
    refine List.map_congr_left (fun t _ => ?_)
    simp only [Function.comp, affMat, List.map_map]
    refine List.map_congr_left (fun p _ => ?_)
    simp only [Function.comp]
    rw [← hedge]
    unfold fillRow
    rw [hcol, hhc, hel _ _ _ (by omega), helE _ _ _ (by omega) (by omega), hel _ _ _ (by omega), hel _ _ _ (by omega),
      helE _ _ _ (by omega) (by omega), hel _ _ _ (by omega), hel _ _ _ (by omega),
      helE _ _ _ (by omega) (by omega), helE _ _ _ (by omega) (by omega), helE _ _ _ (by omega) (by omega),
      extrapolated_val (hneq _ _ (by omega) (by omega) (by omega)),
      extrapolated_val (hneq _ _ (by omega) (by omega) (by omega)),
      lineThrough_unique (hneq _ _ (by omega) (by omega) (by omega)) _ _ (t.1 + t.2.1 * p) t.2.2 rfl rfl,
      lineThrough_unique (hneq _ _ (by omega) (by omega) (by omega)) _ _ (t.1 + t.2.1 * p) t.2.2 rfl rfl]
  have : colsFilled st = { st with colIdx := (colsFilled st).colIdx, tieData := (colsFilled st).tieData } := rfl
  rw [this, hc', hd']

/-- interpolation of an affine function on positions that reach the edges of the fine grid -/
theorem interpolate_affine (S : SplLib (FP K)) (hS : ∀ xs ys x, S 1 xs ys x = linSeg xs ys x) (st : Interp (FP K))
    (rs cs hs hc : List K) (coef : List (K × K × K)) (hr : st.rowIdx = rs.map val) (hcol : st.colIdx = cs.map val)
    (hh : st.hrowIdx = hs.map val) (hhc : st.hcolIdx = hc.map val) (hD : st.tieData = coef.map (fun t => affMat t rs cs))
    (hkx : st.kx = 1) (hky : st.ky = 1) (h1 : 1 ≤ hs.length) (e0 : rs.head? = hs.head?)
    (e1 : rs.getLast? = hs.getLast?) (f0 : cs.head? = hc.head?) (f1 : cs.getLast? = hc.getLast?) :
    (∀ out, interpolate S st = .ok out → out = coef.map (fun t => affMat t hs hc)) ∧
    (rs.Pairwise (· < ·) → cs.Pairwise (· < ·) → 2 ≤ rs.length → 2 ≤ cs.length → hs.Pairwise (· ≤ ·) →
      hc.Pairwise (· ≤ ·) → interpolate S st = .ok (coef.map (fun t => affMat t hs hc))) := by
  have key1 : ∀ t, hs = rs → cs.Pairwise (· < ·) → 2 ≤ cs.length →
      oneVal S st (affMat t rs cs) = affMat t hs hc := by
    intro t he hcs h2
    subst he
    unfold oneVal
    rw [hh, hhc, hcol, hky]
    apply List.ext_getElem
    · simp [affMat]
    · intro i hi1 hi2
      have hi : i < hs.length := by simpa using hi1
      have : (affMat t hs cs).getD i [] = cs.map (fun q => val ((t.1 + t.2.1 * hs[i]) + t.2.2 * q)) := by
        simp [affMat, hi]
      have e2 : (affMat t hs hc)[i] = hc.map (fun q => val ((t.1 + t.2.1 * hs[i]) + t.2.2 * q)) := by
        simp [affMat]
      rw [e2, List.getElem_map, List.getElem_range, this, List.map_map]
      refine List.map_congr_left (fun y _ => ?_)
      simp only [Function.comp]
      rw [hS, linSeg_affine _ _ _ cs hcs h2]
  have key2 : ∀ t, rs.Pairwise (· < ·) → cs.Pairwise (· < ·) → 2 ≤ rs.length → 2 ≤ cs.length → hs.Pairwise (· ≤ ·) →
      hc.Pairwise (· ≤ ·) → rectVal S st (affMat t rs cs) = affMat t hs hc := by
    intro t hrs hcs h2r h2 hhs hhcs
    unfold rectVal
    rw [hh, hhc, hcol, hr, hky, hkx]
    unfold affMat
    rw [List.map_map]
    refine List.map_congr_left (fun x hx => ?_)
    simp only [Function.comp]
    rw [List.map_map]
    refine List.map_congr_left (fun y hy => ?_)
    simp only [Function.comp, List.map_map]
    obtain ⟨a0, ha0⟩ : ∃ a, rs.head? = some a := ⟨_, List.head?_eq_some_head (by intro e; simp [e] at h2r)⟩
    obtain ⟨a1, ha1⟩ : ∃ a, rs.getLast? = some a := ⟨_, List.getLast?_eq_some_getLast (by intro e; simp [e] at h2r)⟩
    obtain ⟨b0, hb0⟩ : ∃ a, cs.head? = some a := ⟨_, List.head?_eq_some_head (by intro e; simp [e] at h2)⟩
    obtain ⟨b1, hb1⟩ : ∃ a, cs.getLast? = some a := ⟨_, List.getLast?_eq_some_getLast (by intro e; simp [e] at h2)⟩
    rw [clamp_inside ha0 ha1 (head_le_weak hhs (e0 ▸ ha0) hx) (le_last_weak hhs (e1 ▸ ha1) hx),
      clamp_inside hb0 hb1 (head_le_weak hhcs (f0 ▸ hb0) hy) (le_last_weak hhcs (f1 ▸ hb1) hy)]
    have : (fun p => S 1 (cs.map val) (cs.map (fun q => val (t.1 + t.2.1 * p + t.2.2 * q))) (val y))
        = fun p : K => (val ((t.1 + t.2.2 * y) + t.2.1 * p) : FP K) := by
      funext p
      rw [hS, linSeg_affine _ _ _ cs hcs h2]
      congr 1; ring
    change S 1 (rs.map val) (rs.map (fun p => S 1 (cs.map val) (cs.map (fun q => val (t.1 + t.2.1 * p + t.2.2 * q)))
      (val y))) (val x) = _
    rw [this, hS, linSeg_affine _ _ _ rs hrs h2r]
    congr 1; ring
  constructor
  · intro out h
    unfold interpolate at h
    split at h
    · rename_i heq
      rw [hh, hr, arrayEqual_val] at heq
      rw [hD] at h
      have := mapM_inv (g := oneVal S st) h (fun d _ m hm => (interp1d_inv S st d m hm (by rw [hh]; simpa using h1)).1)
      rw [this, List.map_map]
      refine List.map_congr_left (fun t ht => ?_)
      cases hx : interp1d S st (affMat t rs cs) with
      | error e =>
        obtain ⟨e', he'⟩ := mapM_error (f := interp1d S st)
          (List.mem_map_of_mem (f := fun t => affMat t rs cs) ht) ⟨e, hx⟩
        rw [he'] at h; cases h
      | ok m =>
        obtain ⟨_, _, g1, g2⟩ := interp1d_inv S st _ m hx (by rw [hh]; simpa using h1)
        rw [hcol, strictInc_val] at g2
        rw [hky, hcol, List.length_map] at g1
        exact key1 t heq g2 g1
    · rw [hD] at h
      have := mapM_inv (g := rectVal S st) h (fun d _ m hm => (rectBivariate_inv S st d m hm).1)
      rw [this, List.map_map]
      refine List.map_congr_left (fun t ht => ?_)
      cases hx : rectBivariate S st (affMat t rs cs) with
      | error e =>
        obtain ⟨e', he'⟩ := mapM_error (f := rectBivariate S st)
          (List.mem_map_of_mem (f := fun t => affMat t rs cs) ht) ⟨e, hx⟩
        rw [he'] at h; cases h
      | ok m =>
        obtain ⟨_, g1, g2, _, _, g3, g4, g5, g6⟩ := rectBivariate_inv S st _ m hx
        rw [hr, strictInc_val] at g1
        rw [hcol, strictInc_val] at g2
        rw [hh, weakInc_val] at g5
        rw [hhc, weakInc_val] at g6
        rw [hr, hkx, List.length_map] at g3
        rw [hcol, hky, List.length_map] at g4
        exact key2 t g1 g2 g3 g4 g5 g6
  · intro hrs hcs h2r h2 hhs hhcs
    unfold interpolate
    rw [hD]
    have hw : ∀ t, ∀ r ∈ affMat t rs cs, r.length = st.colIdx.length := by
      intro t r hr'
      obtain ⟨p, _, rfl⟩ := List.mem_map.mp hr'
      simp [hcol]
    split
    · rename_i heq
      rw [hh, hr, arrayEqual_val] at heq
      rw [mapM_ok (g := oneVal S st), List.map_map]
      · exact congrArg _ (List.map_congr_left (fun t _ => key1 t heq hcs h2))
      · intro d hd
        obtain ⟨t, _, rfl⟩ := List.mem_map.mp hd
        exact interp1d_ok S st _ (by simp [affMat, hh, heq]) (hw t) (by rw [hky, hcol]; simp; omega)
          (by rw [hcol, strictInc_val]; exact hcs)
    · rw [mapM_ok (g := rectVal S st), List.map_map]
      · exact congrArg _ (List.map_congr_left (fun t _ => key2 t hrs hcs h2r h2 hhs hhcs))
      · intro d hd
        obtain ⟨t, _, rfl⟩ := List.mem_map.mp hd
        exact rectBivariate_ok S st _ (by rw [hr, strictInc_val]; exact hrs) (by rw [hcol, strictInc_val]; exact hcs)
          (by simp [affMat, hr]) (hw t) (by rw [hkx, hr]; simp; omega) (by rw [hky, hcol]; simp; omega)
          (by rw [hh, weakInc_val]; exact hhs) (by rw [hhc, weakInc_val]; exact hhcs)

omit [IsStrictOrderedRing K] in

example : interpolate (fun _ => linSeg (α := FP ℚ)) ⟨[val 0, val 2, val 4], [val 1, val 3], [val 0, val 1, val 4], [val 1, val 2, val 3], 0,
      [affMat (5, 2, -3) [0, 2, 4] [1, 3]], 1, 1⟩ = .ok [affMat (5, 2, -3) [0, 1, 4] [1, 2, 3]] :=
  (interpolate_affine (fun _ => linSeg (α := FP ℚ)) (fun _ _ _ => rfl) _ [0, 2, 4] [1, 3] [0, 1, 4] [1, 2, 3] [(5, 2, -3)]
    rfl rfl rfl rfl rfl rfl rfl (by simp) rfl rfl rfl rfl).2 (by norm_num) (by norm_num) (by simp) (by simp) (by norm_num) (by norm_num)

theorem edgeCols_head (cs hc : List K) (h2 : 1 ≤ cs.length) (h1 : 1 ≤ hc.length) :
    (edgeCols cs hc).head? = hc.head? := by
  match cs, hc, h2, h1 with
  | a :: cs, b :: hc, _, _ =>
    unfold edgeCols
    by_cases h : a = b <;> simp [h]

omit [IsStrictOrderedRing K] in
theorem edgeCols_last (cs hc : List K) (h2 : 1 ≤ cs.length) (h1 : 1 ≤ hc.length) :
    (edgeCols cs hc).getLast? = hc.getLast? := by
  have e : hc.getLast? = some (hc.getD (hc.length - 1) 0) := by
    rw [List.getLast?_eq_getElem?, getD_of_lt _ _ (by omega), List.getElem?_eq_getElem (by omega)]
  have e' : cs.getLast? = some (cs.getD (cs.length - 1) 0) := by
    rw [List.getLast?_eq_getElem?, getD_of_lt _ _ (by omega), List.getElem?_eq_getElem (by omega)]
  unfold edgeCols
  rw [e]
  by_cases h : cs.getD (cs.length - 1) 0 = hc.getD (hc.length - 1) 0
  · rw [if_pos h, List.append_nil, List.getLast?_append, e', h]; rfl
  · rw [if_neg h]; simp

/-- **C14**: tie data affine in the row and column positions (any number of arrays, each with its own coefficients), fine
rows forming `m ≥ 1` whole chunks with at least two tie rows each, first orders.  Then `fill_borders("y", "x")` succeeds,
and whatever `interpolate()` then returns is exactly the affine function at every fine position; it does return if the
filled row and column positions are increasing and the fine positions sorted. -/
theorem C14_affine (S : SplLib (FP K)) (hS : ∀ xs ys x, S 1 xs ys x = linSeg xs ys x) (st : Interp (FP K))
    (rs cs hs hc : List K) (coef : List (K × K × K)) (hr : st.rowIdx = rs.map val) (hcol : st.colIdx = cs.map val)
    (hh : st.hrowIdx = hs.map val) (hhc : st.hcolIdx = hc.map val) (hD : st.tieData = coef.map (fun t => affMat t rs cs))
    (hkx : st.kx = 1) (hky : st.ky = 1) (hrs : rs.Nodup) (hcs : cs.Nodup) (h2 : 2 ≤ cs.length) (h1 : 1 ≤ hc.length)
    (m : Nat) (hm : 1 ≤ m) (hk : 1 ≤ effChunk st) (hl : st.hrowIdx.length = m * effChunk st)
    (hsel : ∀ c < m, 2 ≤ (chunkTies st c).length) :
    ∃ st', fillBorders ["y", "x"] st = (.ok (), st') ∧
      (∀ out, interpolate S st' = .ok out → out = coef.map (fun t => affMat t hs hc)) ∧
      (strictInc st'.rowIdx = true → strictInc st'.colIdx = true → weakInc st'.hrowIdx = true →
        weakInc st'.hcolIdx = true → interpolate S st' = .ok (coef.map (fun t => affMat t hs hc))) := by
  obtain ⟨st1, hst1, hrow1, hdat1, _, _⟩ := C10_fill_rows st m hm hk hl (by
    rw [hD, hr]; intro d hd; obtain ⟨t, _, rfl⟩ := List.mem_map.mp hd; simp [affMat]) hsel
  obtain ⟨r1, r2, r3, r4, r5, r6⟩ := fillRows_rest hst1
  have hlen : hs.length = m * effChunk st := by rw [← hl, hh]; simp
  have hel : ∀ i < hs.length, el st.hrowIdx i = val (hs.getD i 0) := by
    intro i hi; rw [hh]; simp [el, hi]
  have hb0 : ∀ c < m, c * effChunk st < hs.length := by
    intro c hc
    rw [hlen]; exact Nat.mul_lt_mul_of_pos_right hc (by omega)
  have hb1 : ∀ c < m, (c + 1) * effChunk st - 1 < hs.length := by
    intro c hc
    have : (c + 1) * effChunk st ≤ m * effChunk st := Nat.mul_le_mul_right _ hc
    have : 0 < m * effChunk st := Nat.mul_pos (by omega) (by omega)
    omega
  set R : List K := (List.range m).flatMap (fun c => [hs.getD (c * effChunk st) 0]
    ++ (chunkTies st c).map (fun i => rs.getD i 0) ++ [hs.getD ((c + 1) * effChunk st - 1) 0]) with hR
  have hselr : ∀ c, ∀ i ∈ chunkTies st c, i < rs.length := by
    intro c i hi
    have := tieRowsIn_lt hi
    rw [hr] at this; simpa using this
  have hrow1' : st1.rowIdx = R.map val := by
    rw [hrow1, hR, List.map_flatMap]
    refine List.flatMap_congr (fun c hc => ?_)
    have hc' := List.mem_range.mp hc
    rw [hel _ (hb0 c hc'), hel _ (hb1 c hc')]
    simp only [List.map_append, List.map_cons, List.map_nil, List.map_map]
    congr 2
    refine List.map_congr_left (fun i hi => ?_)
    have := hselr c i hi
    rw [hr]; simp [el, this]
  have hdat1' : st1.tieData = coef.map (fun t => affMat t R cs) := by
    rw [hdat1, hD, List.map_map]
    refine List.map_congr_left (fun t _ => ?_)
    simp only [Function.comp]
    rw [hR]
    unfold affMat
    rw [List.map_flatMap]
    refine List.flatMap_congr (fun c hc => ?_)
    have hc' := List.mem_range.mp hc
    rw [hel _ (hb0 c hc'), hel _ (hb1 c hc'), hr]
    exact bracketed_affine t rs cs hrs (chunkTies st c) (hselr c) (List.Nodup.filter _ List.nodup_range) (hsel c hc') _ _
  have hfc := fillCols_affine st1 R cs hc coef (by rw [r1, hcol]) (by rw [r3, hhc]) hdat1' hcs h2 h1
  set st2 : Interp (FP K) := { st1 with colIdx := (edgeCols cs hc).map val,
                                        tieData := coef.map (fun t => affMat t R (edgeCols cs hc)) } with hst2
  have hs1 : 1 ≤ hs.length := by have := hb0 0 (by omega); omega
  have e0 : R.head? = hs.head? := by
    have : List.range m = 0 :: (List.range (m - 1)).map (· + 1) := by
      obtain ⟨n, rfl⟩ : ∃ n, m = n + 1 := ⟨m - 1, by omega⟩
      rw [List.range_succ_eq_map]; rfl
    rw [hR, this, List.flatMap_cons, Nat.zero_mul, List.head?_eq_getElem? (l := hs), List.getElem?_eq_getElem (by omega)]
    simp [show 0 < hs.length by omega]
  have e1 : R.getLast? = hs.getLast? := by
    obtain ⟨n, rfl⟩ : ∃ n, m = n + 1 := ⟨m - 1, by omega⟩
    rw [hR, List.range_succ, List.flatMap_append, List.flatMap_cons, List.flatMap_nil, List.append_nil,
      ← List.append_assoc, List.getLast?_append, ← hlen, List.getLast?_eq_getElem? (l := hs),
      List.getElem?_eq_getElem (by omega)]
    simp [show hs.length - 1 < hs.length by omega]
  have hI := interpolate_affine S hS st2 R (edgeCols cs hc) hs hc coef hrow1' rfl (r2.trans hh) (r3.trans hhc)
    rfl (r5.trans hkx) (r6.trans hky) hs1 e0 e1 (edgeCols_head cs hc (by omega) h1)
    (edgeCols_last cs hc (by omega) h1)
  refine ⟨st2, ?_, hI.1, ?_⟩
  · unfold fillBorders
    rw [show ["y", "x"].mapM (fillCase (α := FP K)) = .ok [fillRows, fillCols] from rfl]
    simp only [runFills, hst1, hfc]
  · intro a b c d
    have hhs2 : st2.hrowIdx = hs.map val := r2.trans hh
    have hhc2 : st2.hcolIdx = hc.map val := r3.trans hhc
    have hro2 : st2.rowIdx = R.map val := hrow1'
    have hco2 : st2.colIdx = (edgeCols cs hc).map val := rfl
    rw [hro2, strictInc_val] at a
    rw [hco2, strictInc_val] at b
    rw [hhs2, weakInc_val] at c
    rw [hhc2, weakInc_val] at d
    refine hI.2 a b ?_ ?_ c d
    · rw [hR]
      obtain ⟨n, rfl⟩ : ∃ n, m = n + 1 := ⟨m - 1, by omega⟩
      rw [List.range_succ_eq_map]
      simp; omega
    · unfold edgeCols; simp; omega

end C14

/-- two chunks of five fine rows with tie rows 1, 3, 6 and 8, tie columns 0 and 1 in the fine columns -1..2 -/
example (t u : ℚ × ℚ × ℚ) :=
  C14_affine (fun _ => linSeg (α := FP ℚ)) (fun _ _ _ => rfl)
    ⟨[val 0.4, val 1.2, val 2.4, val 3.2], [val 0, val 1], [val 0, val 0.4, val 0.8, val 1.2, val 1.6,
      val 2, val 2.4, val 2.8, val 3.2, val 3.6], [val (-1), val 0, val 1, val 2], 5,
      [affMat t [0.4, 1.2, 2.4, 3.2] [0, 1], affMat u [0.4, 1.2, 2.4, 3.2] [0, 1]], 1, 1⟩
    [0.4, 1.2, 2.4, 3.2] [0, 1] [0, 0.4, 0.8, 1.2, 1.6, 2, 2.4, 2.8, 3.2, 3.6] [-1, 0, 1, 2] [t, u]
    rfl rfl rfl rfl rfl rfl rfl (by simp; norm_num) (by simp) (by simp) (by simp) 2 (by simp) (by simp [effChunk])
    (by simp [effChunk]) (by
      intro c hc
      have : c = 0 ∨ c = 1 := by omega
      rcases this with rfl | rfl
      · simp [chunkTies, tieRowsIn, effChunk, List.range_succ, el]; norm_num
      · simp [chunkTies, tieRowsIn, effChunk, List.range_succ, el]; norm_num)

end Verif.Props
