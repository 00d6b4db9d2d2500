import Verif.Props.InterpolatorNum
import Verif.Props.ModisDask

/-!
# C49, C50, C51: positions outside the tie points, rows per scan, rechunking
-/

namespace Verif.Props
open Verif Verif.Interpolator Verif.Spec FP

/-! ## C49 -/

section C49
variable {K : Type} [Field K] [LinearOrder K] [IsStrictOrderedRing K]

/-- tie position `i` is the nearest one to `x`, and `x` is that position or lies beyond the first or the last one -/
def NearestEnd (ks : List K) (x : K) (i : Nat) : Prop :=
  ∃ h : i < ks.length, x = ks[i] ∨ (i = 0 ∧ x ≤ ks[i]) ∨ (i + 1 = ks.length ∧ ks[i] ≤ x)

omit [IsStrictOrderedRing K] in
theorem clamp_nearest {ks : List K} (hks : ks.Pairwise (· < ·)) {x : K} {i : Nat} (hi : i < ks.length)
    (h : NearestEnd ks x i) : clamp (ks.map val) (val x) = val ks[i] := by
  obtain ⟨_, h⟩ := h
  have hne : ks ≠ [] := by intro e; rw [e] at hi; simp at hi
  have ha : ks.head? = some ks[0] := by rw [List.head?_eq_getElem?, List.getElem?_eq_getElem (by omega)]
  have hb : ks.getLast? = some (ks[ks.length - 1]'(by omega)) := by
    rw [List.getLast?_eq_getElem?, List.getElem?_eq_getElem (by omega)]
  rcases h with h | ⟨h0, hx⟩ | ⟨h1, hx⟩
  · rw [h]; exact clamp_node hks (List.getElem_mem hi)
  · subst h0
    rcases eq_or_lt_of_le hx with e | hlt
    · rw [e]; exact clamp_node hks (List.getElem_mem hi)
    · unfold clamp
      rw [List.head?_map, List.getLast?_map, ha, hb]
      simp [hlt]
  · have hl : ks.length - 1 = i := by omega
    rcases eq_or_lt_of_le hx with e | hlt
    · rw [← e]; exact clamp_node hks (List.getElem_mem hi)
    · have h0 : ks[0] ≤ ks[i] := head_le hks ha (List.getElem_mem hi)
      unfold clamp
      rw [List.head?_map, List.getLast?_map, ha, hb]
      simp [not_lt.mpr (le_trans h0 hx), hl, hlt]

/-- **C49**: in the two-dimensional case (fine rows other than the tie rows), with strictly increasing tie positions,
matching data, sorted fine positions and orders the number of tie points allows: a fine row before the first (after the
last) tie row takes the value of the first (last) tie row, a fine column likewise, at tie columns (rows) and at the
corners; nothing is extrapolated. -/
theorem C49_outside (S : SplLib (FP K)) (st : Interp (FP K)) (rs cs hs hc : List K) (D : List (List (List K)))
    (hr : st.rowIdx = rs.map val) (hcol : st.colIdx = cs.map val) (hh : st.hrowIdx = hs.map val)
    (hhc : st.hcolIdx = hc.map val) (hD : st.tieData = D.map numMat) (hne : hs ≠ rs)
    (hrs : rs.Pairwise (· < ·)) (hcs : cs.Pairwise (· < ·)) (hhs : hs.Pairwise (· ≤ ·)) (hhcs : hc.Pairwise (· ≤ ·))
    (hrows : ∀ d ∈ D, d.length = rs.length) (hcols : ∀ d ∈ D, ∀ r ∈ d, r.length = cs.length)
    (hkx : st.kx < rs.length) (hky : st.ky < cs.length)
    (hSx : Interpolating S st.kx) (hSy : Interpolating S st.ky) :
    ∃ out, interpolate S st = .ok out ∧ ∀ n (hn : n < D.length) a b i j (ha : a < hs.length) (hb : b < hc.length) (v : K),
      NearestEnd rs hs[a] i → NearestEnd cs hc[b] j →
      (∃ h1 : i < D[n].length, ∃ h2 : j < D[n][i].length, D[n][i][j] = v) →
      el (row (out.getD n []) a) b = val v := by
  have hsr : strictInc st.rowIdx = true := by rw [hr, strictInc_val]; exact hrs
  have hsc : strictInc st.colIdx = true := by rw [hcol, strictInc_val]; exact hcs
  have hwr : weakInc st.hrowIdx = true := by rw [hh, weakInc_val]; exact hhs
  have hwc : weakInc st.hcolIdx = true := by rw [hhc, weakInc_val]; exact hhcs
  have heq : ¬ arrayEqual st.hrowIdx st.rowIdx = true := by
    rw [hh, hr, arrayEqual_val]; exact hne
  refine ⟨st.tieData.map (rectVal S st), ?_, ?_⟩
  · unfold interpolate
    rw [if_neg heq]
    refine mapM_ok (fun d hd => ?_)
    rw [hD] at hd
    obtain ⟨d', hd', rfl⟩ := List.mem_map.mp hd
    refine rectBivariate_ok S st _ hsr hsc ?_ ?_ ?_ ?_ hwr hwc
    · simp [numMat, hr, hrows d' hd']
    · intro r hr'
      obtain ⟨r', hr'', rfl⟩ := List.mem_map.mp hr'
      simp [hcol, hcols d' hd' r' hr'']
    · simpa [hr] using hkx
    · simpa [hcol] using hky
  · intro n hn a b i j ha hb v e1 e2 ⟨h1, h2, hv⟩
    obtain ⟨hi, _⟩ := id e1
    obtain ⟨hj, _⟩ := id e2
    have hlen := hrows D[n] (List.getElem_mem hn)
    have : row ((st.tieData.map (rectVal S st)).getD n []) a
        = hc.map (fun y => S st.kx (rs.map val) ((numMat D[n]).map
            (fun r => S st.ky (cs.map val) r (clamp (cs.map val) (val y)))) (clamp (rs.map val) (val hs[a]))) := by
      simp [row, hD, hn, rectVal, hh, ha, hhc, hcol, hr]
    rw [this]
    have : ∀ f : K → FP K, el (hc.map f) b = f hc[b] := by intro f; simp [el, hb]
    rw [this, clamp_nearest hrs hi e1, clamp_nearest hcs hj e2]
    have hj' : ∀ r ∈ D[n], j < r.length := by
      intro r hr'; rw [hcols D[n] (List.getElem_mem hn) r hr']; exact hj
    have : (numMat D[n]).map (fun r => S st.ky (cs.map val) r (val cs[j]))
        = (D[n].map (fun r => r.getD j 0)).map val := by
      unfold numMat
      rw [List.map_map, List.map_map]
      refine List.map_congr_left (fun r hr' => ?_)
      simp only [Function.comp]
      rw [hSy cs r hcs (hcols D[n] (List.getElem_mem hn) r hr') hky j hj (hj' r hr')]
      simp [hj' r hr']
    rw [this, hSx rs _ hrs (by simpa using hlen) hkx i hi (by simpa using h1)]
    simp [h2, hv]

/-- three tie rows from 1 to 5, two tie columns from 1 to 3; the fine grid begins at -2 and 0, before the tie points -/
example : ∃ out, interpolate (fun _ => linSeg (α := FP ℚ))
    ⟨[val 1, val 3, val 5], [val 1, val 3], [val (-2), val 1, val 7], [val 0, val 4], 0,
      [[[val 5, val 6], [val 7, val 1], [val 0, val 2]]], 1, 1⟩ = .ok out ∧
    el (row (out.getD 0 []) 0) 0 = val 5 ∧ el (row (out.getD 0 []) 2) 1 = val 2 := by
  obtain ⟨out, e, h⟩ := C49_outside (fun _ => linSeg (α := FP ℚ))
    ⟨[val 1, val 3, val 5], [val 1, val 3], [val (-2), val 1, val 7], [val 0, val 4], 0,
      [[[val 5, val 6], [val 7, val 1], [val 0, val 2]]], 1, 1⟩
    [1, 3, 5] [1, 3] [-2, 1, 7] [0, 4] [[[5, 6], [7, 1], [0, 2]]] rfl rfl rfl rfl rfl (by norm_num)
    (by simp; norm_num) (by simp) (by simp; norm_num) (by simp) (by simp) (by simp) (by simp) (by simp)
    interpolating_linSeg interpolating_linSeg
  refine ⟨out, e, ?_, ?_⟩
  · exact h 0 (by simp) 0 0 0 0 (by simp) (by simp) 5 ⟨by simp, by right; left; norm_num⟩ ⟨by simp, by right; left; norm_num⟩
      ⟨by simp, by simp, by simp⟩
  · exact h 0 (by simp) 2 1 2 1 (by simp) (by simp) 2 ⟨by simp, by right; right; norm_num⟩
      ⟨by simp, by right; right; norm_num⟩ ⟨by simp, by simp, by simp⟩

end C49

/-! ## C50 -/

/-- **C50**: the number of rows per scan is known exactly for the four MODIS resolutions, and there a scan always covers
10 km along track; every other resolution is a KeyError. -/
theorem C50_rows_per_scan (res : Nat) :
    (res ∈ [250, 500, 1000, 5000] ∧ ∃ n, Modis.rowsPerScan res = .ok n ∧ n * res = 10000) ∨
    (res ∉ [250, 500, 1000, 5000] ∧ Modis.rowsPerScan res = .error .keyError) := by
  by_cases h : res ∈ [250, 500, 1000, 5000]
  · left
    refine ⟨h, ?_⟩
    simp only [List.mem_cons, List.not_mem_nil, or_false] at h
    rcases h with rfl | rfl | rfl | rfl
    · exact ⟨40, rfl, rfl⟩
    · exact ⟨20, rfl, rfl⟩
    · exact ⟨10, rfl, rfl⟩
    · exact ⟨2, rfl, rfl⟩
  · right
    refine ⟨h, ?_⟩
    simp only [List.mem_cons, List.not_mem_nil, or_false, not_or] at h
    unfold Modis.rowsPerScan
    rw [if_neg h.2.2.2, if_neg h.2.2.1, if_neg h.2.1, if_neg h.1]

example : ∃ n, Modis.rowsPerScan 500 = .ok n ∧ n * 500 = 10000 := ⟨20, rfl, rfl⟩
example : Modis.rowsPerScan 750 = .error .keyError := rfl

/-! ## C51 -/

section C51
open Verif.ModisDask
variable {α : Type}

/-- **C51 (result)**: for arrays with the same number of rows, a whole number of scans, whose first array has chunks that
add up to its shape and a first row chunk of at least one scan: rechunking succeeds, keeps the contents, and gives all
arrays the same row chunks, each a whole number of scans, and a single column chunk. -/
theorem C51_whole_scans (rps n r0 : Nat) (hp : 0 < rps) (first : DArr α) (rest : List (DArr α)) (cs : List Nat)
    (hwf : first.WF) (hr : first.rowChunks = r0 :: cs) (hr0 : rps ≤ r0)
    (hrows : ∀ a ∈ first :: rest, a.data.rows = n * rps) :
    ∃ rc : List Nat, rc.sum = n * rps ∧ (∀ c ∈ rc, rps ∣ c) ∧
      rechunkIfNeeded rps first rest = .ok ((first :: rest).map (fun a => ⟨a.data, rc, [a.data.cols]⟩)) := by
  have hb : r0 / rps * rps ≠ 0 := by
    have := Nat.div_pos hr0 hp
    exact Nat.mul_ne_zero (by omega) (by omega)
  obtain ⟨c0, cl, hbd⟩ := blockdims_ok (d := n * rps) (Or.inr hb)
  refine ⟨c0 :: cl, blockdims_sum hbd, blockdims_dvd hbd ⟨n, Nat.mul_comm _ _⟩ ⟨r0 / rps, Nat.mul_comm _ _⟩, ?_⟩
  have hfr := hrows first (List.mem_cons_self ..)
  unfold rechunkIfNeeded
  have hmod : ¬ first.data.rows % rps ≠ 0 := by rw [hfr]; simp
  rw [if_neg hmod, goodCol_false hwf, hr]
  simp only [Bool.and_false, Bool.false_and]
  exact rechunk_all hbd _ hrows

example : ∃ rc : List Nat, rc.sum = 4 * 10 ∧ (∀ c ∈ rc, 10 ∣ c) ∧
    rechunkIfNeeded 10 (⟨⟨40, 7, fun _ _ => 0⟩, [25, 15], [3, 4]⟩ : DArr Nat) [⟨⟨40, 7, fun _ _ => 1⟩, [40], [7]⟩]
      = .ok [⟨⟨40, 7, fun _ _ => 0⟩, rc, [7]⟩, ⟨⟨40, 7, fun _ _ => 1⟩, rc, [7]⟩] :=
  C51_whole_scans 10 4 25 (by decide) ⟨⟨40, 7, fun _ _ => 0⟩, [25, 15], [3, 4]⟩ [⟨⟨40, 7, fun _ _ => 1⟩, [40], [7]⟩]
    [15] ⟨rfl, rfl⟩ rfl (by decide) (by simp)

/-- **C51 (sizes)**: the row chunks after rechunking are all `⌊r0 / rps⌋ rps` except a smaller last one, whatever the
chunks were before. -/
theorem C51_sizes (rps n r0 : Nat) (hp : 0 < rps) (hn : 0 < n) (first : DArr α) (rest : List (DArr α)) (cs : List Nat)
    (hwf : first.WF) (hr : first.rowChunks = r0 :: cs) (hr0 : rps ≤ r0)
    (hrows : ∀ a ∈ first :: rest, a.data.rows = n * rps) :
    ∃ args, rechunkIfNeeded rps first rest = .ok args ∧ ∀ a ∈ args,
      a.rowChunks = List.replicate (n / (r0 / rps)) (r0 / rps * rps) ++
        (if n % (r0 / rps) = 0 then [] else [n % (r0 / rps) * rps]) := by
  have hq : 0 < r0 / rps := Nat.div_pos hr0 hp
  have hb : r0 / rps * rps ≠ 0 := Nat.mul_ne_zero (by omega) (by omega)
  have hN : n * rps ≠ 0 := Nat.mul_ne_zero (by omega) (by omega)
  have hbd : blockdims (n * rps) (r0 / rps * rps) = .ok (List.replicate (n / (r0 / rps)) (r0 / rps * rps) ++
        (if n % (r0 / rps) = 0 then [] else [n % (r0 / rps) * rps])) := by
    unfold blockdims
    rw [if_neg hN, if_neg hb, Nat.mul_div_mul_right _ _ hp, Nat.mul_mod_mul_right]
    congr 2
    have : n % (r0 / rps) * rps = 0 ↔ n % (r0 / rps) = 0 := by
      rw [Nat.mul_eq_zero]
      constructor
      · rintro (h | h)
        · exact h
        · omega
      · exact Or.inl
    simp only [this]
  generalize List.replicate (n / (r0 / rps)) (r0 / rps * rps) ++
    (if n % (r0 / rps) = 0 then [] else [n % (r0 / rps) * rps]) = rc at hbd
  refine ⟨(first :: rest).map (fun a => ⟨a.data, rc, [a.data.cols]⟩), ?_, fun a ha => ?_⟩
  · have hfr := hrows first (List.mem_cons_self ..)
    unfold rechunkIfNeeded
    have hmod : ¬ first.data.rows % rps ≠ 0 := by rw [hfr]; simp
    rw [if_neg hmod, goodCol_false hwf, hr]
    simp only [Bool.and_false, Bool.false_and]
    exact rechunk_all hbd _ hrows
  · obtain ⟨b, _, rfl⟩ := List.mem_map.mp ha
    rfl

example : ∃ args, rechunkIfNeeded 10 (⟨⟨50, 7, fun _ _ => 0⟩, [25, 25], [3, 4]⟩ : DArr Nat) [] = .ok args ∧
    ∀ a ∈ args, a.rowChunks = [20, 20, 10] :=
  C51_sizes 10 5 25 (by decide) (by decide) ⟨⟨50, 7, fun _ _ => 0⟩, [25, 25], [3, 4]⟩ [] [25] ⟨rfl, rfl⟩ rfl (by decide)
    (by simp)

/-- the unchanged arrays are returned only for column chunks that do not add up to the number of columns -/
theorem C51_never_kept (rps : Nat) (first : DArr α) (hwf : first.WF) (r0 : Nat) (cs : List Nat)
    (hr : first.rowChunks = r0 :: cs) (rest : List (DArr α)) (hd : rps ∣ first.data.rows) :
    rechunkIfNeeded rps first rest = (first :: rest).mapM (fun a => a.rechunkRows (r0 / rps * rps)) := by
  unfold rechunkIfNeeded
  have hmod : ¬ first.data.rows % rps ≠ 0 := by simp [Nat.mod_eq_zero_of_dvd hd]
  rw [if_neg hmod, goodCol_false hwf, hr]
  simp

/-- an array already divided into whole scans is divided anew all the same -/
example : rechunkIfNeeded 10 (⟨⟨40, 7, fun _ _ => 0⟩, [20, 20], [3, 4]⟩ : DArr Nat) []
    = [(⟨⟨40, 7, fun _ _ => 0⟩, [20, 20], [3, 4]⟩ : DArr Nat)].mapM (fun a => a.rechunkRows 20) :=
  C51_never_kept 10 _ ⟨rfl, rfl⟩ 20 [20] rfl [] (by decide)

/-- **C51 is false of the code**: arrays already chunked in whole scans and full lines, all alike, are rechunked
nevertheless (the test of the column chunks compares with `!=` where it should compare with `==`): one array with row
chunks 10 and 20 and one column chunk gets row chunks 10, 10 and 10. -/
theorem C51_negation (content : Nat → Nat → α) (w : Nat) :
    rechunkIfNeeded 10 (⟨⟨30, w, content⟩, [10, 20], [w]⟩ : DArr α) []
      = .ok [⟨⟨30, w, content⟩, [10, 10, 10], [w]⟩] := by
  have hb : blockdims 30 10 = .ok [10, 10, 10] := by
    unfold blockdims
    simp
  rw [C51_never_kept 10 _ ⟨rfl, by simp⟩ 10 [20] rfl [] (by simp)]
  exact rechunk_all (N := 30) hb [⟨⟨30, w, content⟩, [10, 20], [w]⟩] (by simp)

end C51

end Verif.Props
