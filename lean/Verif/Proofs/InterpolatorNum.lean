import Verif.Proofs.Interpolator

/-!
# Interpolation on sorted grids: exact arithmetic
-/

namespace Verif.Interpolator
open Verif Verif.Spec FP

variable {K : Type} [Field K] [LinearOrder K] [IsStrictOrderedRing K]

theorem getD_of_lt {β : Type} (l : List β) (d : β) {i : Nat} (h : i < l.length) : l.getD i d = l[i] := by simp [h]

/-! ### sortedness -/

theorem strictInc_val (ks : List K) : strictInc (ks.map val) = true ↔ ks.Pairwise (· < ·) := by
  rw [← List.isChain_iff_pairwise]
  induction ks with
  | nil => simp [strictInc]
  | cons a l ih =>
    cases l with
    | nil => simp [strictInc]
    | cons b l =>
      simp only [List.map_cons, strictInc, val_sub, zero_eq, lt_val, sub_pos, Bool.and_eq_true, decide_eq_true_eq,
        List.isChain_cons_cons]
      rw [← ih]; rfl

theorem weakInc_val (ks : List K) : weakInc (ks.map val) = true ↔ ks.Pairwise (· ≤ ·) := by
  rw [← List.isChain_iff_pairwise]
  induction ks with
  | nil => simp [weakInc]
  | cons a l ih =>
    cases l with
    | nil => simp [weakInc]
    | cons b l =>
      simp only [List.map_cons, weakInc, val_sub, zero_eq, le_val, sub_nonneg, Bool.and_eq_true, decide_eq_true_eq,
        List.isChain_cons_cons]
      rw [← ih]; rfl

omit [IsStrictOrderedRing K] in
/-- sorted positions (at least two) are numbers -/
theorem strictInc_numbers {xs : List (FP K)} (h : strictInc xs = true) (hl : 2 ≤ xs.length) :
    ∃ ks : List K, xs = ks.map val := by
  induction xs with
  | nil => simp at hl
  | cons a l ih =>
    match l, h with
    | [], _ => simp at hl
    | b :: l, h =>
      simp only [strictInc, Bool.and_eq_true] at h
      obtain ⟨h1, h2⟩ := h
      obtain ⟨x, rfl⟩ : ∃ x, a = val x := by
        cases a with
        | bad => simp at h1
        | val x => exact ⟨x, rfl⟩
      obtain ⟨y, rfl⟩ : ∃ y, b = val y := by
        cases b with
        | bad => simp at h1
        | val y => exact ⟨y, rfl⟩
      match l with
      | [] => exact ⟨[x, y], rfl⟩
      | c :: l =>
        obtain ⟨ks, hks⟩ := ih h2 (by simp)
        exact ⟨x :: ks, by rw [List.map_cons, ← hks]⟩

/-! ### clamping -/

omit [IsStrictOrderedRing K] in
theorem clamp_inside {ks : List K} {a b x : K} (ha : ks.head? = some a) (hb : ks.getLast? = some b) (h1 : a ≤ x)
    (h2 : x ≤ b) : clamp (ks.map val) (val x) = val x := by
  unfold clamp
  rw [List.head?_map, List.getLast?_map, ha, hb]
  simp [not_lt.mpr h1, not_lt.mpr h2]

omit [Field K] [IsStrictOrderedRing K] in
theorem head_le {ks : List K} (h : ks.Pairwise (· < ·)) {a x : K} (ha : ks.head? = some a) (hx : x ∈ ks) : a ≤ x := by
  match ks, ha with
  | b :: l, ha =>
    simp only [List.head?_cons, Option.some.injEq] at ha
    subst ha
    rcases List.mem_cons.mp hx with h' | h'
    · rw [h']
    · exact le_of_lt ((List.pairwise_cons.mp h).1 x h')

omit [Field K] [IsStrictOrderedRing K] in
theorem le_last {ks : List K} (h : ks.Pairwise (· < ·)) {b x : K} (hb : ks.getLast? = some b) (hx : x ∈ ks) : x ≤ b := by
  induction ks generalizing x with
  | nil => cases hx
  | cons a l ih =>
    cases l with
    | nil =>
      simp at hb hx
      rw [hx, hb]
    | cons c l =>
      rw [List.getLast?_cons_cons] at hb
      have hp := List.pairwise_cons.mp h
      rcases List.mem_cons.mp hx with h' | h'
      · rw [h']
        exact le_of_lt (lt_of_lt_of_le (hp.1 c (List.mem_cons_self ..)) (ih hp.2 hb (List.mem_cons_self ..)))
      · exact ih hp.2 hb h'

omit [Field K] [IsStrictOrderedRing K] in
theorem head_le_weak {ks : List K} (h : ks.Pairwise (· ≤ ·)) {a x : K} (ha : ks.head? = some a) (hx : x ∈ ks) :
    a ≤ x := by
  match ks, ha with
  | b :: l, ha =>
    simp only [List.head?_cons, Option.some.injEq] at ha
    subst ha
    rcases List.mem_cons.mp hx with h' | h'
    · rw [h']
    · exact (List.pairwise_cons.mp h).1 x h'

omit [Field K] [IsStrictOrderedRing K] in
theorem le_last_weak {ks : List K} (h : ks.Pairwise (· ≤ ·)) {b x : K} (hb : ks.getLast? = some b) (hx : x ∈ ks) :
    x ≤ b := by
  induction ks generalizing x with
  | nil => cases hx
  | cons a l ih =>
    cases l with
    | nil =>
      simp at hb hx
      rw [hx, hb]
    | cons c l =>
      rw [List.getLast?_cons_cons] at hb
      have hp := List.pairwise_cons.mp h
      rcases List.mem_cons.mp hx with h' | h'
      · rw [h']
        exact le_trans (hp.1 c (List.mem_cons_self ..)) (ih hp.2 hb (List.mem_cons_self ..))
      · exact ih hp.2 hb h'

omit [IsStrictOrderedRing K] in
theorem clamp_node {ks : List K} (h : ks.Pairwise (· < ·)) {x : K} (hx : x ∈ ks) :
    clamp (ks.map val) (val x) = val x := by
  have hne : ks ≠ [] := by intro e; rw [e] at hx; cases hx
  obtain ⟨a, ha⟩ : ∃ a, ks.head? = some a := ⟨_, List.head?_eq_some_head hne⟩
  obtain ⟨b, hb⟩ : ∃ b, ks.getLast? = some b := ⟨_, List.getLast?_eq_some_getLast hne⟩
  exact clamp_inside ha hb (head_le h ha hx) (le_last h hb hx)

/-! ### the first-order spline -/

omit [IsStrictOrderedRing K] in
/-- affine data are interpolated (and extrapolated) exactly -/
theorem linSeg_affine (a b : K) (x : K) (ks : List K) (h : ks.Pairwise (· < ·)) (hl : 2 ≤ ks.length) :
    linSeg (ks.map val) (ks.map (fun k => val (a + b * k))) (val x) = val (a + b * x) := by
  induction ks with
  | nil => simp at hl
  | cons k0 l ih =>
    match l, hl, h, ih with
    | k1 :: l, _, h, ih =>
      have hlt : k0 < k1 := (List.pairwise_cons.mp h).1 k1 (List.mem_cons_self ..)
      have hne : k1 - k0 ≠ 0 := sub_ne_zero.mpr (ne_of_gt hlt)
      simp only [List.map_cons, linSeg]
      split
      · simp only [val_sub, val_div_of_ne _ hne, val_mul, val_add]
        congr 1
        field_simp
        ring
      · rename_i hcond
        have hle : 2 ≤ (k1 :: l).length := by
          cases l with
          | nil => simp at hcond
          | cons c l => simp
        exact ih (List.pairwise_cons.mp h).2 hle

omit [IsStrictOrderedRing K] in
theorem linSeg_ge_head_step {k0 k1 : K} {l : List K} {y0 y1 : FP K} {ys : List (FP K)} {x : K} (hl : l ≠ [])
    (h : k1 ≤ x) : linSeg (val k0 :: val k1 :: l.map val) (y0 :: y1 :: ys) (val x)
      = linSeg (val k1 :: l.map val) (y1 :: ys) (val x) := by
  rw [linSeg]
  have : ((l.map (val : K → FP K)).isEmpty || Arith.lt (val x : FP K) (val k1)) = false := by
    simp [not_lt.mpr h, hl]
  rw [this]
  simp

omit [IsStrictOrderedRing K] in
/-- the first-order spline takes the given values at the given positions -/
theorem linSeg_node (ks : List K) (h : ks.Pairwise (· < ·)) (ys : List K) (hy : ys.length = ks.length)
    (hl : 2 ≤ ks.length) (i : Nat) (hi : i < ks.length) :
    linSeg (ks.map val) (ys.map val) (val ks[i]) = val (ys[i]'(by omega)) := by
  induction ks generalizing ys i with
  | nil => simp at hl
  | cons k0 l ih =>
    match l, ys, hl, h, ih, hy with
    | k1 :: l, y0 :: y1 :: ys, _, h, ih, hy =>
      have hp := List.pairwise_cons.mp h
      have hlt : k0 < k1 := hp.1 k1 (List.mem_cons_self ..)
      have hne : k1 - k0 ≠ 0 := sub_ne_zero.mpr (ne_of_gt hlt)
      match i with
      | 0 =>
        simp only [List.map_cons, linSeg, List.getElem_cons_zero]
        rw [if_pos (by simp [hlt])]
        simp only [val_sub, val_div_of_ne _ hne, val_mul, val_add]
        congr 1
        field_simp
        ring
      | i + 1 =>
        cases l with
        | nil =>
          have : i = 0 := by simp at hi; omega
          subst this
          simp only [List.map_cons, List.map_nil, linSeg, List.getElem_cons_succ, List.getElem_cons_zero]
          rw [if_pos (by simp)]
          simp only [val_sub, val_div_of_ne _ hne, val_mul, val_add]
          congr 1
          field_simp
          ring
        | cons c l =>
          simp only [List.getElem_cons_succ]
          have hk : k1 ≤ (k1 :: c :: l)[i]'(by simpa using hi) := head_le hp.2 rfl (List.getElem_mem _)
          have := linSeg_ge_head_step (k0 := k0) (y0 := val y0) (y1 := val y1) (ys := ys.map val) (l := c :: l)
            (by simp) hk
          simp only [List.map_cons] at this ⊢
          rw [this]
          have := ih hp.2 (y1 :: ys) (by simpa using hy) (by simp) i (by simpa using hi)
          simpa using this

/-! ### the two interpolation paths -/

theorem mapM_inv {β γ : Type} {f : β → Except Err γ} {g : β → γ} {l : List β} {r : List γ} (h : l.mapM f = .ok r)
    (hg : ∀ a ∈ l, ∀ b, f a = .ok b → b = g a) : r = l.map g := by
  induction l generalizing r with
  | nil => injection h with h; subst h; rfl
  | cons a l ih =>
    obtain ⟨b, r', h1, h2, rfl⟩ := mapM_cons_ok h
    rw [List.map_cons, ← hg a (List.mem_cons_self ..) b h1, ← ih h2 (fun a ha => hg a (List.mem_cons_of_mem _ ha))]

section Paths
variable {α : Type} [Arith α]

/-- what `interp1d` returns when it succeeds -/
def oneVal (S : SplLib α) (st : Interp α) (d : Mat α) : Mat α :=
  (List.range st.hrowIdx.length).map (fun c => st.hcolIdx.map (S st.ky st.colIdx (d.getD c [])))

/-- what `rectBivariate` returns when it succeeds -/
def rectVal (S : SplLib α) (st : Interp α) (d : Mat α) : Mat α :=
  st.hrowIdx.map (fun x => st.hcolIdx.map (fun y =>
    S st.kx st.rowIdx (d.map (fun row => S st.ky st.colIdx row (clamp st.colIdx y))) (clamp st.rowIdx x)))

theorem interp1d_ok (S : SplLib α) (st : Interp α) (d : Mat α) (hl : st.hrowIdx.length ≤ d.length)
    (hr : ∀ r ∈ d, r.length = st.colIdx.length) (hk : st.ky < st.colIdx.length) (hs : strictInc st.colIdx = true) :
    interp1d S st d = .ok (oneVal S st d) := by
  unfold interp1d oneVal
  refine mapM_ok (fun c hc => ?_)
  have hc' : c < d.length := lt_of_lt_of_le (List.mem_range.mp hc) hl
  have e1 : idx d c = .ok d[c] := by simp [idx, hc']
  have e2 : d.getD c [] = d[c] := by simp [hc']
  rw [e1, e2]
  change splineRow S st d[c] = _
  unfold splineRow
  rw [if_neg (by simp [hr _ (List.getElem_mem hc')]), if_neg (by simp [hk]), if_pos hs]

theorem interp1d_inv (S : SplLib α) (st : Interp α) (d m : Mat α) (h : interp1d S st d = .ok m)
    (h1 : 1 ≤ st.hrowIdx.length) :
    m = oneVal S st d ∧ st.hrowIdx.length ≤ d.length ∧ st.ky < st.colIdx.length ∧ strictInc st.colIdx = true := by
  have key : ∀ c < st.hrowIdx.length, ∃ r, (idx d c).bind (splineRow S st) = .ok r := by
    intro c hc
    by_contra hne
    have : ∃ e, (idx d c).bind (splineRow S st) = .error e := by
      cases hx : (idx d c).bind (splineRow S st) with
      | error e => exact ⟨e, rfl⟩
      | ok r => exact absurd ⟨r, hx⟩ hne
    obtain ⟨e, he⟩ := mapM_error (f := fun c => (idx d c).bind (splineRow S st)) (List.mem_range.mpr hc) this
    have : interp1d S st d = .error e := he
    rw [this] at h; cases h
  have key2 : ∀ c < st.hrowIdx.length, c < d.length ∧ st.ky < st.colIdx.length ∧ strictInc st.colIdx = true ∧
      (d.getD c []).length = st.colIdx.length := by
    intro c hc
    obtain ⟨r, hr⟩ := key c hc
    by_cases hcd : c < d.length
    · have e1 : idx d c = .ok d[c] := by simp [idx, hcd]
      rw [e1] at hr
      change splineRow S st d[c] = _ at hr
      unfold splineRow at hr
      split at hr
      · cases hr
      · split at hr
        · cases hr
        · split at hr
          · rename_i a b c'
            exact ⟨hcd, not_not.mp b, c', by simpa [hcd] using a⟩
          · cases hr
    · have e1 : idx d c = .error .indexError := by simp [idx, hcd]
      rw [e1] at hr; cases hr
  have hlen : st.hrowIdx.length ≤ d.length := by
    have := (key2 (st.hrowIdx.length - 1) (by omega)).1
    omega
  refine ⟨?_, hlen, (key2 0 (by omega)).2.1, (key2 0 (by omega)).2.2.1⟩
  have : interp1d S st d = .ok (oneVal S st d) := by
    unfold interp1d oneVal
    refine mapM_ok (fun c hc => ?_)
    obtain ⟨hcd, hk, hs, hl⟩ := key2 c (List.mem_range.mp hc)
    have e1 : idx d c = .ok d[c] := by simp [idx, hcd]
    have e2 : d.getD c [] = d[c] := by simp [hcd]
    rw [e2] at hl
    rw [e1, e2]
    change splineRow S st d[c] = _
    unfold splineRow
    rw [if_neg (by simp [hl]), if_neg (by simp [hk]), if_pos hs]
  rw [this] at h
  exact (Except.ok.inj h).symm

theorem rectBivariate_ok (S : SplLib α) (st : Interp α) (d : Mat α) (hr : strictInc st.rowIdx = true)
    (hc : strictInc st.colIdx = true) (hl : d.length = st.rowIdx.length) (hw : ∀ r ∈ d, r.length = st.colIdx.length)
    (hkx : st.kx < st.rowIdx.length) (hky : st.ky < st.colIdx.length) (hhr : weakInc st.hrowIdx = true)
    (hhc : weakInc st.hcolIdx = true) : rectBivariate S st d = .ok (rectVal S st d) := by
  unfold rectBivariate rectVal
  rw [if_pos]
  simp only [hr, hc, hl, hkx, hky, hhr, hhc, beq_self_eq_true, decide_true, Bool.and_true, Bool.true_and,
    List.all_eq_true, beq_iff_eq]
  exact hw

theorem rectBivariate_inv (S : SplLib α) (st : Interp α) (d m : Mat α) (h : rectBivariate S st d = .ok m) :
    m = rectVal S st d ∧ strictInc st.rowIdx = true ∧ strictInc st.colIdx = true ∧ d.length = st.rowIdx.length ∧
      (∀ r ∈ d, r.length = st.colIdx.length) ∧ st.kx < st.rowIdx.length ∧ st.ky < st.colIdx.length ∧
      weakInc st.hrowIdx = true ∧ weakInc st.hcolIdx = true := by
  unfold rectBivariate at h
  split at h
  · rename_i hc
    simp only [Bool.and_eq_true, beq_iff_eq, List.all_eq_true, decide_eq_true_eq] at hc
    obtain ⟨⟨⟨⟨⟨⟨⟨a, b⟩, c⟩, d⟩, e⟩, f⟩, g⟩, k⟩ := hc
    exact ⟨(Except.ok.inj h).symm, a, b, c, d, e, f, g, k⟩
  · cases h

end Paths

omit [IsStrictOrderedRing K] in
theorem arrayEqual_val (a b : List K) : arrayEqual (a.map val) (b.map val) = true ↔ a = b := by
  unfold arrayEqual
  induction a generalizing b with
  | nil => cases b <;> simp
  | cons x a ih =>
    cases b with
    | nil => simp
    | cons y b =>
      have := ih b
      simp only [List.length_map, Bool.and_eq_true, beq_iff_eq, List.map_cons, List.length_cons, List.zipWith_cons_cons,
        List.all_cons, id, eq_val, decide_eq_true_eq, List.cons.injEq, Nat.add_right_cancel_iff] at this ⊢
      rw [← this]
      tauto

end Verif.Interpolator
