import Verif.Model.Presets
import Verif.Props.InterpolatorNum

/-!
# Grids of whole scans
-/

set_option linter.unusedSectionVars false

namespace Verif.Presets
open Verif Verif.Interpolator Verif.Spec Verif.Props FP

variable {K : Type} [Field K] [LinearOrder K] [IsStrictOrderedRing K]

/-- A grid made of scans: `t` tie rows and `k` fine rows per scan at positions `p` and `h`, `n` tie columns and `N` fine
columns at positions `q` and `g`. -/
structure ScanGrid (K : Type) [Field K] [LinearOrder K] where
  t : Nat
  k : Nat
  n : Nat
  N : Nat
  p : Nat → K
  h : Nat → K
  q : Nat → K
  g : Nat → K
  ht : 2 ≤ t
  hk : 1 ≤ k
  hkt : k ≠ t + 2
  hp : ∀ i : Nat, (i : K) ≤ p i ∧ p i < i + 1
  hps : ∀ c j : Nat, p (c * t + j) = (c * t : Nat) + p j
  hhs : ∀ c a : Nat, h (c * k + a) = (c * t : Nat) + h a
  hhm : ∀ a b : Nat, a < b → h a < h b
  hfirst : h 0 < p 0
  hlast : p (t - 1) < h (k - 1)
  hn : 4 ≤ n
  hN : 1 ≤ N
  hqm : ∀ a b : Nat, a < b → q a < q b
  hgm : ∀ a b : Nat, a < b → g a < g b
  hq0 : g 0 ≤ q 0
  hq1 : q (n - 1) ≤ g (N - 1)

variable (G : ScanGrid K)

/-- positions as a list -/
def poss (f : Nat → K) (n : Nat) : List K := (List.range n).map f

/-- the interpolator of `s` scans with tie data `D` -/
def ScanGrid.state (s : Nat) (D : List (Mat (FP K))) : Interp (FP K) :=
  ⟨(poss G.p (s * G.t)).map val, (poss G.q G.n).map val, (poss G.h (s * G.k)).map val, (poss G.g G.N).map val, G.k, D, 1, 3⟩

theorem poss_length (f : Nat → K) (n : Nat) : (poss f n).length = n := by simp [poss]

theorem poss_getD (f : Nat → K) {n i : Nat} (h : i < n) : (poss f n).getD i 0 = f i := by simp [poss, h]

theorem poss_el (f : Nat → K) {n i : Nat} (h : i < n) : el ((poss f n).map (val : K → FP K)) i = val (f i) := by
  simp [poss, el, h]

theorem poss_sorted {f : Nat → K} (hf : ∀ a b, a < b → f a < f b) (n : Nat) : (poss f n).Pairwise (· < ·) := by
  unfold poss
  rw [List.pairwise_map]
  exact List.pairwise_lt_range.imp (hf _ _)

theorem ScanGrid.pmono {i j : Nat} (h : i < j) : G.p i < G.p j := by
  have h1 := (G.hp i).2
  have h2 := (G.hp j).1
  have h3 : (i : K) + 1 ≤ j := by exact_mod_cast h
  linarith

/-! ### tie rows of a chunk -/

theorem effChunk_state (s : Nat) (D : List (Mat (FP K))) : effChunk (G.state s D) = G.k := by
  have := G.hk
  unfold effChunk ScanGrid.state
  rw [if_neg (by show ¬ G.k = 0; omega)]

theorem chunkTies_state {s c : Nat} (hc : c < s) (D : List (Mat (FP K))) :
    chunkTies (G.state s D) c = (List.range G.t).map (fun j => c * G.t + j) := by
  have hk := G.hk
  have ht := G.ht
  have hs : 1 ≤ s := by omega
  have hsK : (s : K) ≠ 0 := by exact_mod_cast (show s ≠ 0 by omega)
  have htK : (G.t : K) ≠ 0 := by exact_mod_cast (show G.t ≠ 0 by omega)
  have hkK : (G.k : K) ≠ 0 := by exact_mod_cast (show G.k ≠ 0 by omega)
  have hlen1 : (G.state s D).hrowIdx.length = s * G.k := by simp [ScanGrid.state, poss]
  have hlen2 : (G.state s D).rowIdx.length = s * G.t := by simp [ScanGrid.state, poss]
  unfold chunkTies
  rw [effChunk_state, hlen1, hlen2]
  have hb : ∀ x : Nat, (Arith.ofInt (x * G.k : Nat) / (Arith.ofInt (s * G.k : Nat) / Arith.ofInt (s * G.t : Nat)) : FP K)
      = val ((x * G.t : Nat) : K) := by
    intro x
    simp only [ofInt_eq]
    push_cast
    rw [val_div_of_ne _ (mul_ne_zero hsK htK), val_div_of_ne _ (div_ne_zero (mul_ne_zero hsK hkK) (mul_ne_zero hsK htK))]
    congr 1
    field_simp
  rw [show c * G.k + G.k = (c + 1) * G.k by ring, hb, hb]
  unfold tieRowsIn
  rw [hlen2]
  have hfil : ∀ i ∈ List.range (s * G.t), (Arith.le (val ((c * G.t : Nat) : K)) (el (G.state s D).rowIdx i) &&
      Arith.lt (el (G.state s D).rowIdx i) (val (((c + 1) * G.t : Nat) : K)))
        = decide (c * G.t ≤ i ∧ i < (c + 1) * G.t) := by
    intro i hi
    have hi' := List.mem_range.mp hi
    have e : el (G.state s D).rowIdx i = val (G.p i) := poss_el G.p hi'
    rw [e, le_val, lt_val, ← Bool.decide_and]
    refine decide_eq_decide.mpr ?_
    obtain ⟨h1, h2⟩ := G.hp i
    constructor
    · rintro ⟨a, b⟩
      have a' : ((c * G.t : Nat) : K) < ((i + 1 : Nat) : K) := by push_cast at *; linarith
      have b' : (i : K) < (((c + 1) * G.t : Nat) : K) := lt_of_le_of_lt h1 b
      rw [Nat.cast_lt] at a' b'
      omega
    · rintro ⟨a, b⟩
      have a' : ((c * G.t : Nat) : K) ≤ (i : K) := by exact_mod_cast a
      have b' : ((i + 1 : Nat) : K) ≤ (((c + 1) * G.t : Nat) : K) := by exact_mod_cast b
      push_cast at *
      constructor <;> linarith
  rw [List.filter_congr hfil]
  have hsplit : s * G.t = c * G.t + G.t + (s - (c + 1)) * G.t := by
    obtain ⟨r, rfl⟩ : ∃ r, s = c + 1 + r := ⟨s - (c + 1), by omega⟩
    rw [Nat.add_sub_cancel_left]; ring
  rw [hsplit, List.range_add, List.range_add, List.filter_append, List.filter_append]
  rw [List.filter_eq_nil_iff.mpr, List.filter_eq_self.mpr, List.filter_eq_nil_iff.mpr, List.nil_append, List.append_nil]
  · intro i hi
    obtain ⟨j, _, rfl⟩ := List.mem_map.mp hi
    rw [Nat.add_mul]
    simp
  · intro i hi
    obtain ⟨j, hj, rfl⟩ := List.mem_map.mp hi
    have := List.mem_range.mp hj
    rw [Nat.add_mul]
    simp; omega
  · intro i hi
    have := List.mem_range.mp hi
    simp; omega

/-! ### filling -/

/-- row positions of one filled scan -/
def ScanGrid.block : List K := [G.h 0] ++ poss G.p G.t ++ [G.h (G.k - 1)]

/-- row positions of `s` filled scans -/
def ScanGrid.rows (s : Nat) : List K := (List.range s).flatMap (fun c => G.block.map (((c * G.t : Nat) : K) + ·))

/-- column positions after filling -/
def ScanGrid.cols : List K := edgeCols (poss G.q G.n) (poss G.g G.N)

/-- one scan of data with its extrapolated rows -/
def ScanGrid.scanFill (m : Mat (FP K)) : Mat (FP K) :=
  bracketed ((poss G.p G.t).map val) m (List.range G.t) (val (G.h 0)) (val (G.h (G.k - 1)))

/-- one row of data with its extrapolated columns -/
def ScanGrid.colFill (r : List (FP K)) : List (FP K) := fillRow (G.state 0 []) r

theorem extrapolated_shift (d a b x : K) (u v : FP K) :
    extrapolated (val (d + a)) (val (d + b)) u v (val (d + x)) = extrapolated (val a) (val b) u v (val x) := by
  unfold extrapolated
  simp only [val_sub, add_sub_add_left_eq_sub]

theorem row_flatten {scs : List (Mat (FP K))} {t : Nat} (hrows : ∀ m ∈ scs, m.length = t) {c j : Nat}
    (hc : c < scs.length) (hj : j < t) : row scs.flatten (c * t + j) = row (scs.getD c []) j := by
  induction scs generalizing c with
  | nil => simp at hc
  | cons m scs ih =>
    have hm : m.length = t := hrows m (List.mem_cons_self ..)
    cases c with
    | zero =>
      simp only [row, List.flatten_cons, Nat.zero_mul, Nat.zero_add, List.getD_eq_getElem?_getD]
      rw [List.getElem?_append_left (by omega)]
      rfl
    | succ c =>
      have := ih (fun m' h => hrows m' (List.mem_cons_of_mem _ h)) (c := c) (by simpa using hc)
      rw [List.getD_cons_succ, ← this]
      simp only [row, List.flatten_cons, List.getD_eq_getElem?_getD]
      rw [List.getElem?_append_right (by rw [hm, Nat.add_mul]; omega), hm]
      congr 2
      rw [Nat.add_mul]; omega

theorem bracketed_state {s : Nat} (D : List (Mat (FP K))) {scs : List (Mat (FP K))} (hlen : scs.length = s)
    (hrows : ∀ m ∈ scs, m.length = G.t) {c : Nat} (hc : c < s) :
    bracketed (G.state s D).rowIdx scs.flatten ((List.range G.t).map (fun j => c * G.t + j))
        (el (G.state s D).hrowIdx (c * G.k)) (el (G.state s D).hrowIdx ((c + 1) * G.k - 1))
      = G.scanFill (scs.getD c []) := by
  have ht := G.ht
  have hk := G.hk
  have hcs : (c + 1) * G.t ≤ s * G.t := Nat.mul_le_mul_right _ hc
  have hck : (c + 1) * G.k ≤ s * G.k := Nat.mul_le_mul_right _ hc
  rw [Nat.add_mul] at hcs hck
  have hpos : ∀ j < G.t, el (G.state s D).rowIdx (c * G.t + j) = val ((c * G.t : Nat) + G.p j) := by
    intro j hj
    rw [← G.hps]; exact poss_el G.p (by omega)
  have hpos0 : ∀ j < G.t, el ((poss G.p G.t).map val) j = val (G.p j) := fun j hj => poss_el G.p hj
  have hh0 : el (G.state s D).hrowIdx (c * G.k) = val ((c * G.t : Nat) + G.h 0) := by
    rw [← G.hhs]; exact poss_el G.h (by omega)
  have hh1 : el (G.state s D).hrowIdx ((c + 1) * G.k - 1) = val ((c * G.t : Nat) + G.h (G.k - 1)) := by
    have e : (c + 1) * G.k - 1 = c * G.k + (G.k - 1) := by rw [Nat.add_mul]; omega
    rw [← G.hhs, e]; exact poss_el G.h (by omega)
  have hrow : ∀ j < G.t, row scs.flatten (c * G.t + j) = row (scs.getD c []) j :=
    fun j hj => row_flatten hrows (by omega) hj
  have hsel : ∀ j < G.t, ((List.range G.t).map (fun j => c * G.t + j)).getD j 0 = c * G.t + j := by
    intro j hj; simp [hj]
  have hsel0 : ∀ j < G.t, (List.range G.t).getD j 0 = j := by
    intro j hj; simp [hj]
  rw [hh0, hh1]
  unfold ScanGrid.scanFill bracketed
  simp only [List.length_map, List.length_range]
  rw [hsel 0 (by omega), hsel 1 (by omega), hsel (G.t - 2) (by omega), hsel (G.t - 1) (by omega),
    hsel0 0 (by omega), hsel0 1 (by omega), hsel0 (G.t - 2) (by omega), hsel0 (G.t - 1) (by omega),
    hpos 0 (by omega), hpos 1 (by omega), hpos (G.t - 2) (by omega), hpos (G.t - 1) (by omega),
    hpos0 0 (by omega), hpos0 1 (by omega), hpos0 (G.t - 2) (by omega), hpos0 (G.t - 1) (by omega),
    hrow 0 (by omega), hrow 1 (by omega), hrow (G.t - 2) (by omega), hrow (G.t - 1) (by omega)]
  simp only [extrapolated_shift]
  congr 2
  rw [List.map_map]
  exact List.map_congr_left (fun j hj => hrow j (List.mem_range.mp hj))

theorem fillRows_state {s : Nat} (hs : 1 ≤ s) (Ds : List (List (Mat (FP K)))) (hlen : ∀ scs ∈ Ds, scs.length = s)
    (hrows : ∀ scs ∈ Ds, ∀ m ∈ scs, m.length = G.t) :
    fillRows (G.state s (Ds.map List.flatten)) = .ok { G.state s [] with
      rowIdx := (G.rows s).map val, tieData := Ds.map (fun scs => scs.flatMap G.scanFill) } := by
  have ht := G.ht
  have hk := G.hk
  set st := G.state s (Ds.map List.flatten) with hst
  have he : effChunk st = G.k := effChunk_state G s _
  obtain ⟨st', h1, h2, h3, _, _⟩ := C10_fill_rows st s hs (by rw [he]; exact hk)
    (by rw [he, hst]; simp [ScanGrid.state, poss]) (by
      intro d hd
      obtain ⟨scs, hscs, rfl⟩ := List.mem_map.mp hd
      rw [List.length_flatten]
      have : scs.map List.length = List.replicate s G.t := by
        rw [List.eq_replicate_iff]
        refine ⟨by rw [List.length_map]; exact hlen scs hscs, ?_⟩
        intro b hb
        obtain ⟨m, hm, rfl⟩ := List.mem_map.mp hb
        exact hrows scs hscs m hm
      rw [this, List.sum_replicate, hst]
      simp [ScanGrid.state, poss])
    (by
      intro c hc
      rw [hst, chunkTies_state G hc]; simp; exact ht)
  obtain ⟨r1, r2, r3, r4, r5, r6⟩ := fillRows_rest h1
  rw [h1]
  have h2' : st'.rowIdx = (G.rows s).map val := by
    rw [h2, ScanGrid.rows, List.map_flatMap]
    refine List.flatMap_congr (fun c hc => ?_)
    have hc' := List.mem_range.mp hc
    have hcs : (c + 1) * G.t ≤ s * G.t := Nat.mul_le_mul_right _ hc'
    have hck : (c + 1) * G.k ≤ s * G.k := Nat.mul_le_mul_right _ hc'
    rw [Nat.add_mul] at hcs hck
    rw [he, hst, chunkTies_state G hc']
    have hh0 : el (G.state s (Ds.map List.flatten)).hrowIdx (c * G.k) = val ((c * G.t : Nat) + G.h 0) := by
      rw [← G.hhs]; exact poss_el G.h (by omega)
    have hh1 : el (G.state s (Ds.map List.flatten)).hrowIdx ((c + 1) * G.k - 1)
        = val ((c * G.t : Nat) + G.h (G.k - 1)) := by
      have e : (c + 1) * G.k - 1 = c * G.k + (G.k - 1) := by rw [Nat.add_mul]; omega
      rw [← G.hhs, e]; exact poss_el G.h (by omega)
    rw [hh0, hh1]
    simp only [ScanGrid.block, List.map_append, List.map_cons, List.map_nil, List.map_map, poss]
    congr 2
    refine List.map_congr_left (fun j hj => ?_)
    have hj' := List.mem_range.mp hj
    simp only [Function.comp]
    rw [← G.hps]; exact poss_el G.p (by omega)
  have h3' : st'.tieData = Ds.map (fun scs => scs.flatMap G.scanFill) := by
    rw [h3, hst]
    simp only [ScanGrid.state, List.map_map]
    refine List.map_congr_left (fun scs hscs => ?_)
    simp only [Function.comp]
    have hl := hlen scs hscs
    have hx : (List.range s).flatMap (fun c => G.scanFill (scs.getD c [])) = scs.flatMap G.scanFill := by
      conv_rhs => rw [← range_map_getD scs []]
      rw [List.flatMap_map, hl]
    rw [← hx]
    refine List.flatMap_congr (fun c hc => ?_)
    have hc' := List.mem_range.mp hc
    have e1 := bracketed_state G (Ds.map List.flatten) hl (hrows scs hscs) hc'
    have e2 := chunkTies_state G hc' (Ds.map List.flatten)
    have e3 := effChunk_state G s (Ds.map List.flatten)
    rw [← e1, ← e2]
    simp only [ScanGrid.state] at e3 ⊢
    rw [e3]
  cases st'
  simp only at h2' h3' r1 r2 r3 r4 r5 r6
  subst h2' h3' r1 r2 r3 r4 r5 r6
  rfl

/-- the filled interpolator -/
def ScanGrid.filled (s : Nat) (Ds : List (List (Mat (FP K)))) : Interp (FP K) :=
  { G.state s [] with
    rowIdx := (G.rows s).map val
    colIdx := G.cols.map val
    tieData := Ds.map (fun scs => scs.flatMap (fun m => (G.scanFill m).map G.colFill)) }

theorem cols_filled : (colsFilled (G.state 0 [])).colIdx = G.cols.map val := by
  have hn := G.hn
  have hN := G.hN
  have h := fillCols_affine (G.state 0 []) [] (poss G.q G.n) (poss G.g G.N) [] rfl rfl rfl
    ((poss_sorted G.hqm G.n).imp ne_of_lt) (by rw [poss_length]; omega) (by rw [poss_length]; omega)
  rw [fillCols_ok ⟨by simp [ScanGrid.state, poss]; omega, by simp [ScanGrid.state, poss]; omega, by
    intro d hd; simp [ScanGrid.state] at hd⟩] at h
  injection h with h
  rw [h]; rfl

theorem scanFill_width {m : Mat (FP K)} (hm : ∀ r ∈ m, r.length = G.n) (hl : m.length = G.t) :
    ∀ r ∈ G.scanFill m, r.length = G.n := by
  have ht := G.ht
  have hrow : ∀ j < G.t, (row m j).length = G.n := by
    intro j hj
    have : row m j = m[j]'(by omega) := by simp [row, hl, hj]
    rw [this]; exact hm _ (List.getElem_mem _)
  have hsel0 : ∀ j < G.t, (List.range G.t).getD j 0 = j := by
    intro j hj; simp [hj]
  intro r hr
  unfold ScanGrid.scanFill bracketed at hr
  simp only [List.length_range, hsel0 0 (by omega), hsel0 1 (by omega), hsel0 (G.t - 2) (by omega),
    hsel0 (G.t - 1) (by omega), List.mem_append, List.mem_singleton, List.mem_map, List.mem_range] at hr
  rcases hr with (rfl | ⟨j, hj, rfl⟩) | rfl
  · simp [hrow 0 (by omega), hrow 1 (by omega)]
  · exact hrow j hj
  · simp [hrow (G.t - 2) (by omega), hrow (G.t - 1) (by omega)]

theorem colFill_width {r : List (FP K)} (hr : r.length = G.n) : (G.colFill r).length = G.cols.length := by
  have := congrArg List.length (cols_filled G)
  rw [List.length_map] at this
  rw [← this]
  unfold ScanGrid.colFill fillRow colsFilled withEdges
  cases needFirst (G.state 0 []) <;> cases needLast (G.state 0 []) <;> simp [ScanGrid.state, poss, hr]

theorem fill_state {s : Nat} (hs : 1 ≤ s) (Ds : List (List (Mat (FP K)))) (hlen : ∀ scs ∈ Ds, scs.length = s)
    (hrows : ∀ scs ∈ Ds, ∀ m ∈ scs, m.length = G.t) (hcols : ∀ scs ∈ Ds, ∀ m ∈ scs, ∀ r ∈ m, r.length = G.n) :
    fillBorders ["y", "x"] (G.state s (Ds.map List.flatten)) = (.ok (), G.filled s Ds) := by
  have hn := G.hn
  have hN := G.hN
  unfold fillBorders
  rw [show ["y", "x"].mapM (fillCase (α := FP K)) = .ok [fillRows, fillCols] from rfl]
  simp only [runFills, fillRows_state G hs Ds hlen hrows]
  rw [fillCols_ok]
  · simp only
    congr 1
    have hc := cols_filled G
    unfold colsFilled at hc ⊢
    have nf : ∀ D R, needFirst ({ G.state s [] with rowIdx := R, tieData := D } : Interp (FP K))
        = needFirst (G.state 0 []) := fun _ _ => rfl
    have nl : ∀ D R, needLast ({ G.state s [] with rowIdx := R, tieData := D } : Interp (FP K))
        = needLast (G.state 0 []) := fun _ _ => rfl
    have fr : ∀ D R, fillRow ({ G.state s [] with rowIdx := R, tieData := D } : Interp (FP K))
        = G.colFill := fun _ _ => rfl
    simp only at hc
    rw [nf, nl, fr]
    unfold ScanGrid.filled
    rw [← hc]
    simp only [List.map_map, ScanGrid.state]
    congr 1
    refine List.map_congr_left (fun scs _ => ?_)
    simp only [Function.comp, List.map_flatMap]
  · refine ⟨by simp [ScanGrid.state, poss]; omega, by simp [ScanGrid.state, poss]; omega, ?_⟩
    intro d hd r hr
    obtain ⟨scs, hscs, rfl⟩ := List.mem_map.mp hd
    obtain ⟨m, hm, hr'⟩ := List.mem_flatMap.mp hr
    rw [scanFill_width G (hcols scs hscs m hm) (hrows scs hscs m hm) r hr']
    simp [ScanGrid.state, poss]

/-! ### sortedness -/

theorem block_length : G.block.length = G.t + 2 := by simp [ScanGrid.block, poss]

theorem block_sorted : G.block.Pairwise (· < ·) := by
  have ht := G.ht
  have h1 := G.hfirst
  have h2 := G.hlast
  have hmem : ∀ x ∈ poss G.p G.t, G.p 0 ≤ x ∧ x ≤ G.p (G.t - 1) := by
    intro x hx
    obtain ⟨j, hj, rfl⟩ := List.mem_map.mp hx
    have hj' := List.mem_range.mp hj
    constructor
    · rcases Nat.eq_zero_or_pos j with rfl | h
      · exact le_refl _
      · exact (G.pmono h).le
    · rcases Nat.lt_or_ge j (G.t - 1) with h | h
      · exact (G.pmono h).le
      · have : j = G.t - 1 := by omega
        rw [this]
  unfold ScanGrid.block
  rw [List.singleton_append, List.cons_append, List.pairwise_cons, List.pairwise_append]
  refine ⟨?_, poss_sorted (fun _ _ => G.pmono) _, List.pairwise_singleton _ _, ?_⟩
  · intro x hx
    rcases List.mem_append.mp hx with h | h
    · exact lt_of_lt_of_le h1 (hmem x h).1
    · rw [List.mem_singleton.mp h]
      have h3 : G.p 0 ≤ G.p (G.t - 1) := (hmem (G.p 0) (List.mem_map.mpr ⟨0, List.mem_range.mpr (by omega), rfl⟩)).2
      linarith
  · intro x hx y hy
    rw [List.mem_singleton.mp hy]
    exact lt_of_le_of_lt (hmem x hx).2 h2

theorem block_range : ∀ x ∈ G.block, G.h 0 ≤ x ∧ x ≤ G.h (G.k - 1) := by
  have hs := block_sorted G
  intro x hx
  refine ⟨head_le hs rfl hx, le_last hs ?_ hx⟩
  unfold ScanGrid.block
  rw [List.getLast?_append]
  rfl

theorem rows_sorted (s : Nat) : (G.rows s).Pairwise (· < ·) := by
  have hk := G.hk
  unfold ScanGrid.rows
  rw [List.pairwise_flatMap]
  constructor
  · intro c _
    rw [List.pairwise_map]
    exact (block_sorted G).imp (fun h => by linarith)
  · refine List.pairwise_lt_range.imp ?_
    intro a b hab x hx y hy
    obtain ⟨x', hx', rfl⟩ := List.mem_map.mp hx
    obtain ⟨y', hy', rfl⟩ := List.mem_map.mp hy
    have h1 := (block_range G x' hx').2
    have h2 := (block_range G y' hy').1
    have h3 : G.h (a * G.k + (G.k - 1)) < G.h (b * G.k + 0) := by
      apply G.hhm
      have : (a + 1) * G.k ≤ b * G.k := Nat.mul_le_mul_right _ hab
      rw [Nat.add_mul] at this
      omega
    rw [G.hhs, G.hhs] at h3
    linarith

theorem rows_length (s : Nat) : (G.rows s).length = s * (G.t + 2) := by
  unfold ScanGrid.rows
  rw [List.length_flatMap]
  simp [block_length]

theorem cols_sorted : G.cols.Pairwise (· < ·) := by
  have hn := G.hn
  have hN := G.hN
  have hs := poss_sorted G.hqm G.n
  have h0 : (poss G.q G.n).head? = some (G.q 0) := by
    rw [List.head?_eq_getElem?]; simp [poss, show 0 < G.n by omega]
  have h1 : (poss G.q G.n).getLast? = some (G.q (G.n - 1)) := by
    rw [List.getLast?_eq_getElem?]; simp [poss, show 0 < G.n by omega]
  have hmem : ∀ x ∈ poss G.q G.n, G.q 0 ≤ x ∧ x ≤ G.q (G.n - 1) := fun x hx => ⟨head_le hs h0 hx, le_last hs h1 hx⟩
  have hle : G.q 0 ≤ G.q (G.n - 1) := (hmem (G.q 0) (List.mem_map.mpr ⟨0, List.mem_range.mpr (by omega), rfl⟩)).2
  unfold ScanGrid.cols edgeCols
  rw [poss_length, poss_length, poss_getD G.q (by omega), poss_getD G.g (by omega), poss_getD G.q (by omega),
    poss_getD G.g (by omega), List.pairwise_append, List.pairwise_append]
  refine ⟨⟨?_, hs, ?_⟩, ?_, ?_⟩
  · split <;> simp
  · intro x hx y hy
    split at hx
    · simp at hx
    · rename_i hne
      rw [List.mem_singleton.mp hx]
      exact lt_of_lt_of_le (lt_of_le_of_ne G.hq0 (Ne.symm hne)) (hmem y hy).1
  · split <;> simp
  · intro x hx y hy
    split at hy
    · simp at hy
    · rename_i hne
      rw [List.mem_singleton.mp hy]
      have hlt : G.q (G.n - 1) < G.g (G.N - 1) := lt_of_le_of_ne G.hq1 hne
      rcases List.mem_append.mp hx with h | h
      · split at h
        · simp at h
        · rw [List.mem_singleton.mp h]
          exact lt_of_le_of_lt (G.hq0.trans hle) hlt
      · exact lt_of_le_of_lt (hmem x h).2 hlt

theorem cols_length : G.n ≤ G.cols.length := by
  unfold ScanGrid.cols edgeCols
  simp [poss]; omega

/-! ### interpolation of the filled grid -/

theorem interpolate_filled (S : SplLib (FP K)) {s : Nat} (hs : 1 ≤ s) (Ds : List (List (Mat (FP K))))
    (hlen : ∀ scs ∈ Ds, scs.length = s) (hrows : ∀ scs ∈ Ds, ∀ m ∈ scs, m.length = G.t)
    (hcols : ∀ scs ∈ Ds, ∀ m ∈ scs, ∀ r ∈ m, r.length = G.n) :
    interpolate S (G.filled s Ds) = .ok ((G.filled s Ds).tieData.map (rectVal S (G.filled s Ds))) := by
  have hn := G.hn
  have ht := G.ht
  have hkt := G.hkt
  have hcl := cols_length G
  unfold interpolate
  rw [if_neg]
  · refine mapM_ok (fun d hd => ?_)
    obtain ⟨scs, hscs, rfl⟩ := List.mem_map.mp hd
    have hfl : ∀ m ∈ scs, ((G.scanFill m).map G.colFill).length = G.t + 2 := by
      intro m hm; simp [ScanGrid.scanFill, bracketed]
    refine rectBivariate_ok S _ _ ?_ ?_ ?_ ?_ ?_ ?_ ?_ ?_
    · exact (strictInc_val _).mpr (rows_sorted G s)
    · exact (strictInc_val _).mpr (cols_sorted G)
    · show _ = ((G.rows s).map val).length
      rw [List.length_flatMap, List.length_map, rows_length]
      have : scs.map (fun m => ((G.scanFill m).map G.colFill).length) = List.replicate s (G.t + 2) := by
        rw [List.eq_replicate_iff]
        refine ⟨by rw [List.length_map]; exact hlen scs hscs, ?_⟩
        intro b hb
        obtain ⟨m, hm, rfl⟩ := List.mem_map.mp hb
        exact hfl m hm
      rw [this, List.sum_replicate]; rfl
    · intro r hr
      obtain ⟨m, hm, hr'⟩ := List.mem_flatMap.mp hr
      obtain ⟨r', hr'', rfl⟩ := List.mem_map.mp hr'
      show _ = (G.cols.map val).length
      rw [colFill_width G (scanFill_width G (hcols scs hscs m hm) (hrows scs hscs m hm) r' hr''), List.length_map]
    · show 1 < ((G.rows s).map val).length
      rw [List.length_map, rows_length]
      have : 1 * (G.t + 2) ≤ s * (G.t + 2) := Nat.mul_le_mul_right _ hs
      omega
    · show 3 < (G.cols.map val).length
      rw [List.length_map]; omega
    · exact (weakInc_val _).mpr ((poss_sorted G.hhm _).imp le_of_lt)
    · exact (weakInc_val _).mpr ((poss_sorted G.hgm _).imp le_of_lt)
  · intro he
    have := (arrayEqual_val _ _).mp he
    have := congrArg List.length this
    rw [poss_length, rows_length] at this
    exact hkt (Nat.eq_of_mul_eq_mul_left (by omega) this)

end Verif.Presets
