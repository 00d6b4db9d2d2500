import Verif.Spec.Modis

namespace Verif.Modis
open Verif Verif.Spec.Modis
variable {α : Type}

theorem fillRect_ok {h w : Nat} {v : α} {arr : Arr2 α} {ro co R C : Nat} {F : Nat → Nat → α}
    {S : Nat → Nat → Prop} (ha : arr.Holds R C F S)
    (hb : ∀ i j, i < h → j < w → ro + i < R ∧ co + j < C ∧ v = F (ro + i) (co + j)) :
    ∃ arr', fillRect h w v arr ro co = .ok arr' ∧
      arr'.Holds R C F (fun i j => S i j ∨ (ro ≤ i ∧ i < ro + h ∧ co ≤ j ∧ j < co + w)) := by
  obtain ⟨a', e, p⟩ := loop2_ok (n := h) (m := w)
    (body := fun i j (arr : Arr2 α) => arr.wr (ro + i) (co + j) v) (s := arr)
    (P := fun T s => s.Holds R C F (fun i j => S i j ∨ ∃ i' j', T i' j' ∧ i = ro + i' ∧ j = co + j'))
    (ha.mono (by rintro i j - - (h | ⟨_, _, h, _⟩); exacts [h, h.elim]))
    (fun S' T' s hst hp => hp.mono (by
      rintro i j - - (h | ⟨a, b, h, e⟩)
      exacts [Or.inl h, Or.inr ⟨a, b, hst _ _ h, e⟩]))
    (fun i j S' s hi hj hp => by
      obtain ⟨h1, h2, h3⟩ := hb i j hi hj
      obtain ⟨s', e, p⟩ := hp.wr h1 h2 h3
      refine ⟨s', e, p.mono ?_⟩
      rintro i' j' - - (h | ⟨a, b, h | ⟨h, h'⟩, e1, e2⟩)
      · exact Or.inl (Or.inl h)
      · exact Or.inl (Or.inr ⟨a, b, h, e1, e2⟩)
      · subst h; subst h'; exact Or.inr ⟨e1, e2⟩)
  refine ⟨a', e, p.mono ?_⟩
  rintro i j - - (h | ⟨h1, h2, h3, h4⟩)
  · exact Or.inl h
  · exact Or.inr ⟨i - ro, j - co, ⟨by omega, by omega⟩, by omega, by omega⟩

/-- a loop of rectangle fills -/
theorem loop_fill_ok {n h w : Nat} {body : Nat → Arr2 α → Except Err (Arr2 α)} {v : Nat → α}
    {ro co : Nat → Nat} {arr : Arr2 α} {R C : Nat} {F : Nat → Nat → α} {S : Nat → Nat → Prop}
    (hbody : ∀ k arr, k < n → body k arr = fillRect h w (v k) arr (ro k) (co k))
    (ha : arr.Holds R C F S)
    (hb : ∀ k i j, k < n → i < h → j < w → ro k + i < R ∧ co k + j < C ∧ v k = F (ro k + i) (co k + j)) :
    ∃ arr', loop n body arr = .ok arr' ∧
      arr'.Holds R C F (fun i j => S i j ∨ ∃ k, k < n ∧ ro k ≤ i ∧ i < ro k + h ∧ co k ≤ j ∧ j < co k + w) := by
  refine loop_ok (P := fun m (s : Arr2 α) => s.Holds R C F
    (fun i j => S i j ∨ ∃ k, k < m ∧ ro k ≤ i ∧ i < ro k + h ∧ co k ≤ j ∧ j < co k + w)) ?_ ?_
  · exact ha.mono (by rintro i j - - (h | ⟨k, hk, _⟩); exacts [h, absurd hk (Nat.not_lt_zero k)])
  · intro m s hm hp
    obtain ⟨s', e, p⟩ := fillRect_ok (h := h) (w := w) (v := v m) (ro := ro m) (co := co m) hp
      (fun i j hi hj => hb m i j hm hi hj)
    refine ⟨s', by rw [hbody m s hm, e], p.mono ?_⟩
    rintro i j - - (h | ⟨k, hk, hr⟩)
    · exact Or.inl (Or.inl h)
    · rcases Nat.lt_succ_iff_lt_or_eq.mp hk with h | h
      · exact Or.inl (Or.inr ⟨k, h, hr⟩)
      · subst h; exact Or.inr hr

/-- a nested loop of rectangle fills -/
theorem loop2_fill_ok {n m h w : Nat} {body : Nat → Nat → Arr2 α → Except Err (Arr2 α)} {v : Nat → Nat → α}
    {ro co : Nat → Nat → Nat} {arr : Arr2 α} {R C : Nat} {F : Nat → Nat → α} {S : Nat → Nat → Prop}
    (hbody : ∀ k l arr, k < n → l < m → body k l arr = fillRect h w (v k l) arr (ro k l) (co k l))
    (ha : arr.Holds R C F S)
    (hb : ∀ k l i j, k < n → l < m → i < h → j < w →
      ro k l + i < R ∧ co k l + j < C ∧ v k l = F (ro k l + i) (co k l + j)) :
    ∃ arr', loop2 n m body arr = .ok arr' ∧
      arr'.Holds R C F (fun i j => S i j ∨ ∃ k l, k < n ∧ l < m ∧
        ro k l ≤ i ∧ i < ro k l + h ∧ co k l ≤ j ∧ j < co k l + w) := by
  obtain ⟨a', e, p⟩ := loop2_ok (n := n) (m := m) (body := body) (s := arr)
    (P := fun T s => s.Holds R C F (fun i j => S i j ∨ ∃ k l, T k l ∧
        ro k l ≤ i ∧ i < ro k l + h ∧ co k l ≤ j ∧ j < co k l + w))
    (ha.mono (by rintro i j - - (h | ⟨_, _, h, _⟩); exacts [h, h.elim]))
    (fun S' T' s hst hp => hp.mono (by
      rintro i j - - (h | ⟨a, b, h, e⟩)
      exacts [Or.inl h, Or.inr ⟨a, b, hst _ _ h, e⟩]))
    (fun k l S' s hk hl hp => by
      obtain ⟨s', e, p⟩ := fillRect_ok (h := h) (w := w) (v := v k l) (ro := ro k l) (co := co k l) hp
        (fun i j hi hj => hb k l i j hk hl hi hj)
      refine ⟨s', by rw [hbody k l s hk hl, e], p.mono ?_⟩
      rintro i' j' - - (h | ⟨a, b, h | ⟨h, h'⟩, e1⟩)
      · exact Or.inl (Or.inl h)
      · exact Or.inl (Or.inr ⟨a, b, h, e1⟩)
      · subst h; subst h'; exact Or.inr e1)
  refine ⟨a', e, p.mono ?_⟩
  rintro i j - - (h | ⟨k, l, hk, hl, hr⟩)
  · exact Or.inl h
  · exact Or.inr ⟨k, l, ⟨hk, hl⟩, hr⟩

theorem rd_bind {β : Type} {a : Arr2 α} {i j : Nat} (hi : i < a.rows) (hj : j < a.cols)
    (k : α → Except Err β) : (a.rd i j >>= k) = k (a.cell i j) := by
  rw [Arr2.rd_ok hi hj]; rfl

theorem div_block {r f a : Nat} (ha : a < f) : (r * f + a) / f = r := by
  have hf : 0 < f := by omega
  rw [Nat.mul_comm, Nat.mul_add_div hf, Nat.div_eq_of_lt ha, Nat.add_zero]

/-- index of the block of size `f` containing `i` -/
theorem block_of {i f : Nat} (hf : 0 < f) : i / f * f ≤ i ∧ i < i / f * f + f := by
  have := Nat.div_add_mod i f
  have h2 := Nat.mod_lt i hf
  rw [Nat.mul_comm] at this
  omega

/-- a shape statement without content -/
theorem holds_shape {a : Arr2 α} {R C : Nat} (hr : a.rows = R) (hc : a.cols = C) (F : Nat → Nat → α) :
    a.Holds R C F (fun _ _ => False) := ⟨hr, hc, fun _ _ _ _ h => h.elim⟩

theorem expand1km_ok {cfg : Cfg} {f : Nat} (hf : 1 ≤ f) (h1 : cfg.len = 10) (h2 : cfg.f = f)
    {inp arr : Arr2 α} (hir : inp.rows = 9) (hic : inp.cols = 1353)
    (har : arr.rows = 10 * f) (hac : arr.cols = 1354 * f) :
    ∃ arr', expand cfg inp arr = .ok arr' ∧
      arr'.Holds (10 * f) (1354 * f) (fun r c => inp.cell (cellRow cfg r) (cellCol cfg c)) (fun _ _ => True) := by
  set F : Nat → Nat → α := fun r c => inp.cell (cellRow cfg r) (cellCol cfg c) with hF
  have hcr : ∀ r, cellRow cfg r = min ((r - f / 2) / f) 8 := fun r => by simp [cellRow, h1, h2]
  have hcc : ∀ c, cellCol cfg c = min (c / f) 1352 := fun c => by simp [cellCol, h1, h2]
  have hh : f / 2 ≤ f := Nat.div_le_self _ _
  -- row/column facts
  have rmain : ∀ k i, k < 9 → i < f → cellRow cfg (k * f + f / 2 + i) = k := by
    intro k i hk hi
    rw [hcr, show k * f + f / 2 + i - f / 2 = k * f + i by omega, div_block hi]; omega
  have rtop : ∀ i, i < f → cellRow cfg (0 * f + i) = 0 := by
    intro i hi
    rw [hcr, Nat.zero_mul, Nat.zero_add, Nat.div_eq_of_lt (by omega)]; rfl
  have rbot : ∀ i, i < f → cellRow cfg (8 * f + f + i) = 8 := by
    intro i hi
    rw [hcr]
    have : 8 ≤ (8 * f + f + i - f / 2) / f := by
      rw [Nat.le_div_iff_mul_le (by omega)]; omega
    omega
  have cmain : ∀ l j, l < 1353 → j < f → cellCol cfg (l * f + j) = l := by
    intro l j hl hj; rw [hcc, div_block hj]; omega
  have cright : ∀ j, j < f → cellCol cfg (1352 * f + f + j) = 1352 := by
    intro j hj
    rw [hcc]
    have : 1352 ≤ (1352 * f + f + j) / f := by
      rw [Nat.le_div_iff_mul_le (by omega)]; omega
    omega
  have hmulle : ∀ {k n : Nat}, k < n → k * f + f ≤ n * f := by
    intro k n hk
    calc k * f + f = (k + 1) * f := by ring
      _ ≤ n * f := Nat.mul_le_mul_right f hk
  -- main
  obtain ⟨a1, e1, p1⟩ := loop2_fill_ok (n := 9) (m := 1353) (h := f) (w := f)
    (body := fun r c arr => do
      let v ← inp.rd r c
      fillRect f f v arr (r * f + f / 2) (c * f))
    (v := fun r c => inp.cell r c) (ro := fun r _ => r * f + f / 2) (co := fun _ c => c * f)
    (arr := arr) (R := 10 * f) (C := 1354 * f) (F := F)
    (fun k l arr hk hl => rd_bind (by omega) (by omega) _)
    (show arr.Holds _ _ _ (fun _ _ => False) from ⟨har, hac, fun _ _ _ _ h => h.elim⟩)
    (fun k l i j hk hl hi hj => by
      have := hmulle hk; have := hmulle hl
      exact ⟨by omega, by omega, by rw [hF]; simp only [rmain k i hk hi, cmain l j hl hj]⟩)
  obtain ⟨a2, e2, p2⟩ := loop_fill_ok (n := 1353) (h := f) (w := f)
    (body := fun c arr => do
      let v ← inp.rd 0 c
      fillRect f f v arr (0 * f) (c * f))
    (v := fun c => inp.cell 0 c) (ro := fun _ => 0 * f) (co := fun c => c * f)
    (fun k arr hk => rd_bind (by omega) (by omega) _) p1
    (fun l i j hl hi hj => by
      have := hmulle hl
      exact ⟨by omega, by omega, by rw [hF]; simp only [rtop i hi, cmain l j hl hj]⟩)
  obtain ⟨a3, e3, p3⟩ := loop_fill_ok (n := 1353) (h := f) (w := f)
    (body := fun c arr => do
      let v ← inp.rd 8 c
      fillRect f f v arr (8 * f + f) (c * f))
    (v := fun c => inp.cell 8 c) (ro := fun _ => 8 * f + f) (co := fun c => c * f)
    (fun k arr hk => rd_bind (by omega) (by omega) _) p2
    (fun l i j hl hi hj => by
      have := hmulle hl
      exact ⟨by omega, by omega, by rw [hF]; simp only [rbot i hi, cmain l j hl hj]⟩)
  -- right column
  obtain ⟨a4, e4, p4⟩ := loop_fill_ok (n := 9) (h := f) (w := f)
    (body := fun r arr => do
      let v ← inp.rd r 1352
      fillRect f f v arr (r * f + f / 2) (1352 * f + f))
    (v := fun r => inp.cell r 1352) (ro := fun r => r * f + f / 2) (co := fun _ => 1352 * f + f)
    (fun k arr hk => rd_bind (by omega) (by omega) _) p3
    (fun k i j hk hi hj => by
      have := hmulle hk
      exact ⟨by omega, by omega, by rw [hF]; simp only [rmain k i hk hi, cright j hj]⟩)
  obtain ⟨a5, e5, p5⟩ := fillRect_ok (h := f) (w := f) (v := inp.cell 0 1352) (ro := 0 * f)
    (co := 1352 * f + f) p4
    (fun i j hi hj => ⟨by omega, by omega, by rw [hF]; simp only [rtop i hi, cright j hj]⟩)
  obtain ⟨a6, e6, p6⟩ := fillRect_ok (h := f) (w := f) (v := inp.cell 8 1352) (ro := 8 * f + f)
    (co := 1352 * f + f) p5
    (fun i j hi hj => ⟨by omega, by omega, by rw [hF]; simp only [rbot i hi, cright j hj]⟩)
  refine ⟨a6, ?_, p6.mono ?_⟩
  · simp only [expand, h1, if_true, expand1kmMain, expand1kmRight, h2, hir, hic]
    simp only [Nat.reduceSub]
    rw [e1]; simp only [bind, Except.bind] at e2 e3 e4 ⊢
    rw [e2]; simp only
    rw [e3]; simp only
    rw [e4]; simp only
    rw [Arr2.rd_ok (by omega) (by omega)]; simp only
    rw [e5]; simp only
    rw [Arr2.rd_ok (by omega) (by omega)]; simp only
    rw [e6]
  · intro i j hi hj _
    have hfp : 0 < f := by omega
    -- row block
    have hrow : i < f ∨ 9 * f ≤ i ∨ ∃ k, k < 9 ∧ k * f + f / 2 ≤ i ∧ i < k * f + f / 2 + f := by
      by_cases c1 : i < f
      · exact Or.inl c1
      · by_cases c2 : 9 * f ≤ i
        · exact Or.inr (Or.inl c2)
        · refine Or.inr (Or.inr ⟨(i - f / 2) / f, ?_, ?_⟩)
          · rw [Nat.div_lt_iff_lt_mul hfp]; omega
          · obtain ⟨b1, b2⟩ := block_of (i := i - f / 2) hfp
            omega
    have hcol : (∃ l, l < 1353 ∧ l * f ≤ j ∧ j < l * f + f) ∨ 1353 * f ≤ j := by
      by_cases c1 : 1353 * f ≤ j
      · exact Or.inr c1
      · refine Or.inl ⟨j / f, ?_, block_of hfp⟩
        rw [Nat.div_lt_iff_lt_mul hfp]; omega
    rcases hcol with ⟨l, hl, hl1, hl2⟩ | hcol
    · refine Or.inl (Or.inl (Or.inl ?_))
      rcases hrow with h | h | ⟨k, hk, hk1, hk2⟩
      · exact Or.inl (Or.inr ⟨l, hl, by omega, by omega, hl1, hl2⟩)
      · exact Or.inr ⟨l, hl, by omega, by omega, hl1, hl2⟩
      · exact Or.inl (Or.inl (Or.inr ⟨k, l, hk, hl, hk1, hk2, hl1, hl2⟩))
    · rcases hrow with h | h | ⟨k, hk, hk1, hk2⟩
      · exact Or.inl (Or.inr ⟨by omega, by omega, by omega, by omega⟩)
      · exact Or.inr ⟨by omega, by omega, by omega, by omega⟩
      · exact Or.inl (Or.inl (Or.inr ⟨k, hk, hk1, hk2, by omega, by omega⟩))

theorem expand5km_ok {cfg : Cfg} {k w : Nat} (hk : 1 ≤ k) (hw : w = 270 ∨ w = 271) (h1 : cfg.len = 2)
    (h2 : cfg.f = k * 5) (h3 : cfg.factor5 = k * 2) (h4 : cfg.width = w)
    {inp arr : Arr2 α} (hir : inp.rows = 1) (hic : inp.cols = w - 1)
    (har : arr.rows = 2 * (k * 5)) (hac : arr.cols = 1354 * k) :
    ∃ arr', expand cfg inp arr = .ok arr' ∧
      arr'.Holds (2 * (k * 5)) (1354 * k) (fun r c => inp.cell (cellRow cfg r) (cellCol cfg c))
        (fun _ _ => True) := by
  set F : Nat → Nat → α := fun r c => inp.cell (cellRow cfg r) (cellCol cfg c) with hF
  have hfp : 0 < k * 5 := by omega
  have hcr : ∀ r, cellRow cfg r = 0 := fun r => by simp [cellRow, h1]
  have hcc : ∀ c, cellCol cfg c = min ((c - k * 2) / (k * 5)) (w - 2) := fun c => by
    simp [cellCol, h1, h2, h3, h4]
  have cmain : ∀ l j, l < w - 1 → j < k * 5 → cellCol cfg (l * (k * 5) + k * 2 + j) = l := by
    intro l j hl hj
    rw [hcc, show l * (k * 5) + k * 2 + j - k * 2 = l * (k * 5) + j by omega, div_block hj]; omega
  have cleft : ∀ j, j < k * 2 → cellCol cfg (0 + j) = 0 := by
    intro j hj
    rw [hcc, show 0 + j - k * 2 = 0 by omega, Nat.zero_div, Nat.zero_min]
  have chigh : ∀ c, (w - 2) * (k * 5) + k * 2 ≤ c → cellCol cfg c = w - 2 := by
    intro c hc
    rw [hcc]
    have : w - 2 ≤ (c - k * 2) / (k * 5) := by
      rw [Nat.le_div_iff_mul_le hfp]; omega
    omega
  have hmulle : ∀ {l n : Nat}, l < n → l * (k * 5) + k * 5 ≤ n * (k * 5) := by
    intro l n hl
    calc l * (k * 5) + k * 5 = (l + 1) * (k * 5) := by ring
      _ ≤ n * (k * 5) := Nat.mul_le_mul_right _ hl
  have hwk : (w - 1) * (k * 5) ≤ 1350 * k := by
    rcases hw with rfl | rfl <;> omega
  obtain ⟨a1, e1, p1⟩ := loop2_fill_ok (n := 1) (m := w - 1) (h := k * 5 * 2) (w := k * 5)
    (body := fun r c arr => do
      let v ← inp.rd r c
      fillRect (k * 5 * 2) (k * 5) v arr (r * (k * 5) * 2) (c * (k * 5) + k * 2))
    (v := fun r c => inp.cell r c) (ro := fun r _ => r * (k * 5) * 2) (co := fun _ c => c * (k * 5) + k * 2)
    (arr := arr) (R := 2 * (k * 5)) (C := 1354 * k) (F := F)
    (fun a l arr ha hl => rd_bind (by omega) (by omega) _)
    (show arr.Holds _ _ _ (fun _ _ => False) from ⟨har, hac, fun _ _ _ _ h => h.elim⟩)
    (fun a l i j ha hl hi hj => by
      have := hmulle hl
      obtain rfl : a = 0 := by omega
      exact ⟨by omega, by omega, by rw [hF]; simp only [hcr, cmain l j hl hj]⟩)
  obtain ⟨a2, e2, p2⟩ := loop_fill_ok (n := 1) (h := k * 5 * 2) (w := k * 2)
    (body := fun r arr => do
      let v ← inp.rd r 0
      fillRect (k * 5 * 2) (k * 2) v arr (r * (k * 5) * 2) 0)
    (v := fun r => inp.cell r 0) (ro := fun r => r * (k * 5) * 2) (co := fun _ => 0)
    (fun a arr ha => rd_bind (by omega) (by omega) _) p1
    (fun a i j ha hi hj => by
      obtain rfl : a = 0 := by omega
      exact ⟨by omega, by omega, by rw [hF]; simp only [hcr, cleft j hj]⟩)
  -- the extra column
  obtain ⟨a3, e3, p3⟩ : ∃ a3, (if w = 270 then expand5kmExtra cfg inp a2 else .ok a2) = .ok a3 ∧
      a3.Holds (2 * (k * 5)) (1354 * k) F (fun i j => j < 1352 * k) := by
    by_cases hw270 : w = 270
    · subst hw270
      obtain ⟨a3, e3, p3⟩ := loop_fill_ok (n := 1) (h := k * 5 * 2) (w := k * 5)
        (body := fun r arr => do
          let v ← inp.rd r 268
          fillRect (k * 5 * 2) (k * 5) v arr (r * (k * 5) * 2) (268 * (k * 5) + k * 5 + k * 2))
        (v := fun r => inp.cell r 268) (ro := fun r => r * (k * 5) * 2)
        (co := fun _ => 268 * (k * 5) + k * 5 + k * 2)
        (fun a arr ha => rd_bind (by omega) (by omega) _) p2
        (fun a i j ha hi hj => by
          obtain rfl : a = 0 := by omega
          exact ⟨by omega, by omega, by rw [hF]; simp only [hcr]; rw [chigh _ (by omega)]⟩)
      refine ⟨a3, ?_, p3.mono ?_⟩
      · rw [if_pos rfl]
        simp only [expand5kmExtra, h2, h3, hir, hic, Nat.reduceSub]
        exact e3
      · intro i j hi hj hlt
        by_cases c1 : j < k * 2
        · exact Or.inl (Or.inr ⟨0, by omega, by omega, by omega, by omega, by omega⟩)
        · by_cases c2 : j < 269 * (k * 5) + k * 2
          · obtain ⟨b1, b2⟩ := block_of (i := j - k * 2) hfp
            refine Or.inl (Or.inl (Or.inr ⟨0, (j - k * 2) / (k * 5), by omega, ?_, by omega, by omega, by omega,
              by omega⟩))
            rw [Nat.div_lt_iff_lt_mul hfp]; omega
          · exact Or.inr ⟨0, by omega, by omega, by omega, by omega, by omega⟩
    · have hw271 : w = 271 := by omega
      subst hw271
      refine ⟨a2, by rw [if_neg hw270], p2.mono ?_⟩
      intro i j hi hj hlt
      by_cases c1 : j < k * 2
      · exact Or.inr ⟨0, by omega, by omega, by omega, by omega, by omega⟩
      · obtain ⟨b1, b2⟩ := block_of (i := j - k * 2) hfp
        refine Or.inl (Or.inr ⟨0, (j - k * 2) / (k * 5), by omega, ?_, by omega, by omega, by omega,
          by omega⟩)
        rw [Nat.div_lt_iff_lt_mul hfp]; omega
  obtain ⟨a4, e4, p4⟩ := loop_fill_ok (n := 1) (h := k * 5 * 2) (w := k * 2)
    (body := fun r arr => do
      let v ← inp.rd r (w - 2)
      fillRect (k * 5 * 2) (k * 2) v arr (r * (k * 5) * 2) (1352 * k))
    (v := fun r => inp.cell r (w - 2)) (ro := fun r => r * (k * 5) * 2) (co := fun _ => 1352 * k)
    (fun a arr ha => rd_bind (by omega) (by omega) _) p3
    (fun a i j ha hi hj => by
      obtain rfl : a = 0 := by omega
      refine ⟨by omega, by omega, ?_⟩
      rw [hF]; simp only [hcr]
      rw [chigh]
      rcases hw with rfl | rfl <;> omega)
  refine ⟨a4, ?_, p4.mono ?_⟩
  · have hlen : ¬ (cfg.len = 10) := by omega
    simp only [expand, if_neg hlen, expand5kmMain, expand5kmEdges, h2, h3, h4, hir, hic, bind,
      Except.bind] at e1 e2 e3 e4 ⊢
    rw [e1]; simp only
    rw [e2]; simp only
    rw [e3]; simp only
    rw [p3.cols, show 1354 * k - k * 2 = 1352 * k by omega, show w - 1 - 1 = w - 2 by omega]
    exact e4
  · intro i j hi hj _
    by_cases c1 : j < 1352 * k
    · exact Or.inl c1
    · exact Or.inr ⟨0, by omega, by omega, by omega, by omega, by omega⟩

/-- `expand` on a supported geometry: no access out of bounds, every cell assigned, the value is that of the tie
cell. -/
theorem expand_ok {cfg : Cfg} (hg : Geometry cfg) {inp arr : Arr2 α} (hir : inp.rows = cfg.len - 1)
    (hic : inp.cols = cfg.width - 1) (har : arr.rows = cfg.len * cfg.f) (hac : arr.cols = cfg.fineWidth) :
    ∃ arr', expand cfg inp arr = .ok arr' ∧
      arr'.Holds (cfg.len * cfg.f) cfg.fineWidth
        (fun r c => inp.cell (cellRow cfg r) (cellCol cfg c)) (fun _ _ => True) := by
  cases hg with
  | km1 f hf => exact expand1km_ok hf rfl rfl hir hic har hac
  | km5 k w hk hw => exact expand5km_ok hk hw rfl rfl rfl rfl hir hic har hac

/-! ### element-wise loops -/

section
variable [Trig α]

omit [Trig α] in
theorem arr3_wr3 {xyz : Arr3 α} {R C : Nat} {F : Nat → Nat → Nat → α} {S : Nat → Nat → Nat → Prop}
    (h : xyz.Holds R C 3 F S) {i j : Nat} (hi : i < R) (hj : j < C) {p : α × α × α}
    (hp : ∀ k, k < 3 → comp p k = F i j k) :
    ∃ xyz', (do
      let xyz ← xyz.wr i j 0 p.1
      let xyz ← xyz.wr i j 1 p.2.1
      xyz.wr i j 2 p.2.2) = Except.ok xyz' ∧
      xyz'.Holds R C 3 F (fun i' j' k' => S i' j' k' ∨ (i' = i ∧ j' = j)) := by
  obtain ⟨x1, e1, p1⟩ := h.wr (v := p.1) hi hj (k := 0) (by omega) (by rw [← hp 0 (by omega)]; rfl)
  obtain ⟨x2, e2, p2⟩ := p1.wr (v := p.2.1) hi hj (k := 1) (by omega) (by rw [← hp 1 (by omega)]; rfl)
  obtain ⟨x3, e3, p3⟩ := p2.wr (v := p.2.2) hi hj (k := 2) (by omega) (by rw [← hp 2 (by omega)]; rfl)
  refine ⟨x3, by rw [e1]; simp only [bind, Except.bind]; rw [e2]; simp only; rw [e3], p3.mono ?_⟩
  intro i' j' k' _ _ hk h
  rcases h with h | ⟨h1, h2⟩
  · exact Or.inl (Or.inl (Or.inl h))
  · obtain rfl | rfl | rfl : k' = 0 ∨ k' = 1 ∨ k' = 2 := by omega
    · exact Or.inl (Or.inl (Or.inr ⟨h1, h2, rfl⟩))
    · exact Or.inl (Or.inr ⟨h1, h2, rfl⟩)
    · exact Or.inr ⟨h1, h2, rfl⟩

theorem lonlat2xyzArr_ok {lons lats : Arr2 α} {xyz : Arr3 α} {R C : Nat}
    (hlr : lons.rows = R) (hlc : lons.cols = C) (har : lats.rows = R) (hac : lats.cols = C)
    (hxr : xyz.rows = R) (hxc : xyz.cols = C) (hxd : xyz.depth = 3) :
    ∃ xyz', lonlat2xyzArr lons lats xyz = .ok xyz' ∧
      xyz'.Holds R C 3 (fun i j k => comp (tieXyz lons.cell lats.cell i j) k) (fun _ _ _ => True) := by
  set F : Nat → Nat → Nat → α := fun i j k => comp (tieXyz lons.cell lats.cell i j) k with hF
  obtain ⟨x', e, p⟩ := loop2_ok (n := lons.rows) (m := lons.cols)
    (body := fun i j (xyz : Arr3 α) => do
      let lon ← lons.rd i j
      let lat ← lats.rd i j
      let p := Geo.cyLonlat2xyz Geo.earthRadius lon lat
      let xyz ← xyz.wr i j 0 p.1
      let xyz ← xyz.wr i j 1 p.2.1
      xyz.wr i j 2 p.2.2) (s := xyz)
    (P := fun T s => s.Holds R C 3 F (fun i j _ => T i j))
    ⟨hxr, hxc, hxd, fun _ _ _ _ _ _ h => h.elim⟩
    (fun S T s hst hp => hp.mono (fun i j k _ _ _ h => hst i j h))
    (fun i j S s hi hj hp => by
      have hi' : i < R := by omega
      have hj' : j < C := by omega
      rw [rd_bind (by omega) (by omega), rd_bind (by omega) (by omega)]
      exact arr3_wr3 hp hi' hj' (fun k _ => rfl))
  exact ⟨x', e, p.mono (fun i j k hi hj _ _ => ⟨by omega, by omega⟩)⟩

omit [Trig α] in
theorem wrTopLeft_ok {a : Arr2 α} {R C r c : Nat} {F : Nat → Nat → α} {S : Nat → Nat → Prop}
    (h : a.Holds R C F S) (hr : r ≤ R) (hc : c ≤ C) {i j : Nat} (hi : i < r) (hj : j < c) {v : α}
    (hv : v = F i j) :
    ∃ a', a.wrTopLeft r c i j v = .ok a' ∧ a'.Holds R C F (fun i' j' => S i' j' ∨ (i' = i ∧ j' = j)) := by
  obtain ⟨a', e, p⟩ := h.wr (v := v) (show i < R by omega) (show j < C by omega) hv
  refine ⟨a', ?_, p⟩
  rw [Arr2.wrTopLeft, if_pos, e]
  rw [h.rows, h.cols]; omega

theorem computeExpansionAlignment_ok {satzA satzB : Arr2 α} {sw r c R C : Nat} {o1 o2 : Arr2 α}
    (h1 : satzA.rows = r) (h2 : satzA.cols = c) (h3 : satzB.rows = r) (h4 : satzB.cols = c)
    (hr : r ≤ R) (hc : c ≤ C) (ho1r : o1.rows = R) (ho1c : o1.cols = C) (ho2r : o2.rows = R)
    (ho2c : o2.cols = C) :
    ∃ out', computeExpansionAlignment satzA satzB sw r c (o1, o2) = .ok out' ∧
      out'.1.Holds R C (fun i j => (expansionAlignment sw (satzA.cell i j) (satzB.cell i j)).1)
        (fun i j => i < r ∧ j < c) ∧
      out'.2.Holds R C (fun i j => (expansionAlignment sw (satzA.cell i j) (satzB.cell i j)).2)
        (fun i j => i < r ∧ j < c) := by
  obtain ⟨x', e, p1, p2⟩ := loop2_ok (n := satzA.rows) (m := satzA.cols)
    (body := fun i j (out : Arr2 α × Arr2 α) => do
      let a ← satzA.rd i j
      let b ← satzB.rd i j
      let ea := expansionAlignment sw a b
      let e ← out.1.wrTopLeft r c i j ea.1
      let l ← out.2.wrTopLeft r c i j ea.2
      .ok (e, l)) (s := (o1, o2))
    (P := fun T s =>
      s.1.Holds R C (fun i j => (expansionAlignment sw (satzA.cell i j) (satzB.cell i j)).1) T ∧
      s.2.Holds R C (fun i j => (expansionAlignment sw (satzA.cell i j) (satzB.cell i j)).2) T)
    ⟨⟨ho1r, ho1c, fun _ _ _ _ h => h.elim⟩, ⟨ho2r, ho2c, fun _ _ _ _ h => h.elim⟩⟩
    (fun S T s hst hp => ⟨hp.1.mono (fun i j _ _ h => hst i j h), hp.2.mono (fun i j _ _ h => hst i j h)⟩)
    (fun i j S s hi hj hp => by
      rw [rd_bind (by omega) (by omega), rd_bind (by omega) (by omega)]
      obtain ⟨a1, e1, q1⟩ := wrTopLeft_ok hp.1 hr hc (show i < r by omega) (show j < c by omega) rfl
      obtain ⟨a2, e2, q2⟩ := wrTopLeft_ok hp.2 hr hc (show i < r by omega) (show j < c by omega) rfl
      refine ⟨(a1, a2), ?_, q1, q2⟩
      simp only [e1, e2, bind, Except.bind])
  refine ⟨x', e, ?_⟩
  rw [h1, h2] at p1 p2
  exact ⟨p1, p2⟩

theorem calculateAtrackAscan_ok {cfg : Cfg} {x y : Arr1 α} {ce ca : Arr2 α} {R C : Nat} {o1 o2 : Arr2 α}
    {Fe Fa : Nat → Nat → α}
    (hy : y.len = R) (hx : x.len = C) (he : ce.Holds R C Fe (fun _ _ => True))
    (ha : ca.Holds R C Fa (fun _ _ => True)) (ho1r : o1.rows = R) (ho1c : o1.cols = C) (ho2r : o2.rows = R)
    (ho2c : o2.cols = C) :
    ∃ out', calculateAtrackAscan cfg x y ce ca (o1, o2) = .ok out' ∧
      out'.1.Holds R C (fun r c => (atrackAscan cfg.f (x.cell c) (y.cell r) (Fe r c) (Fa r c)).1)
        (fun _ _ => True) ∧
      out'.2.Holds R C (fun r c => (atrackAscan cfg.f (x.cell c) (y.cell r) (Fe r c) (Fa r c)).2)
        (fun _ _ => True) := by
  obtain ⟨x', e, p1, p2⟩ := loop2_ok (n := y.len) (m := x.len)
    (body := fun j i (out : Arr2 α × Arr2 α) => do
      let xi ← x.rd i
      let yj ← y.rd j
      let ce ← ce.rd j i
      let ca ← ca.rd j i
      let p := atrackAscan cfg.f xi yj ce ca
      let t ← out.1.wr j i p.1
      let s ← out.2.wr j i p.2
      .ok (t, s)) (s := (o1, o2))
    (P := fun T s =>
      s.1.Holds R C (fun r c => (atrackAscan cfg.f (x.cell c) (y.cell r) (Fe r c) (Fa r c)).1) T ∧
      s.2.Holds R C (fun r c => (atrackAscan cfg.f (x.cell c) (y.cell r) (Fe r c) (Fa r c)).2) T)
    ⟨⟨ho1r, ho1c, fun _ _ _ _ h => h.elim⟩, ⟨ho2r, ho2c, fun _ _ _ _ h => h.elim⟩⟩
    (fun S T s hst hp => ⟨hp.1.mono (fun i j _ _ h => hst i j h), hp.2.mono (fun i j _ _ h => hst i j h)⟩)
    (fun i j S s hi hj hp => by
      have hi' : i < R := by omega
      have hj' : j < C := by omega
      rw [Arr1.rd_ok hj, Arr1.rd_ok hi, he.rd hi' hj' trivial, ha.rd hi' hj' trivial]
      obtain ⟨a1, e1, q1⟩ := hp.1.wr hi' hj' rfl
      obtain ⟨a2, e2, q2⟩ := hp.2.wr hi' hj' rfl
      refine ⟨(a1, a2), ?_, q1, q2⟩
      simp only [bind, Except.bind, e1, e2])
  exact ⟨x', e, p1.mono (fun i j _ _ _ => ⟨by omega, by omega⟩), p2.mono (fun i j _ _ _ => ⟨by omega, by omega⟩)⟩

theorem computeFineXyzComponent_ok {t s a b c d : Arr2 α} {k R C : Nat} {Ft Fs Fa Fb Fc Fd : Nat → Nat → α}
    {xyz : Arr3 α} {G : Nat → Nat → Nat → α} {S : Nat → Nat → Nat → Prop}
    (ht : t.Holds R C Ft (fun _ _ => True)) (hs : s.Holds R C Fs (fun _ _ => True))
    (ha : a.Holds R C Fa (fun _ _ => True)) (hb : b.Holds R C Fb (fun _ _ => True))
    (hc : c.Holds R C Fc (fun _ _ => True)) (hd : d.Holds R C Fd (fun _ _ => True))
    (hx : xyz.Holds R C 3 G S) (hk : k < 3)
    (hG : ∀ i j, i < R → j < C →
      fineComponent (Ft i j) (Fs i j) (Fa i j) (Fb i j) (Fc i j) (Fd i j) = G i j k) :
    ∃ xyz', computeFineXyzComponent t s a b c d k xyz = .ok xyz' ∧
      xyz'.Holds R C 3 G (fun i j k' => S i j k' ∨ k' = k) := by
  obtain ⟨x', e, p⟩ := loop2_ok (n := s.rows) (m := s.cols)
    (body := fun i j (xyz : Arr3 α) => do
      let t ← t.rd i j
      let s ← s.rd i j
      let va ← a.rd i j
      let vb ← b.rd i j
      let vd ← d.rd i j
      let vc ← c.rd i j
      xyz.wr i j k (fineComponent t s va vb vc vd)) (s := xyz)
    (P := fun T s => s.Holds R C 3 G (fun i j k' => S i j k' ∨ (T i j ∧ k' = k)))
    (hx.mono (by rintro i j k' - - - (h | ⟨h, _⟩); exacts [h, h.elim]))
    (fun S' T s hst hp => hp.mono (by
      rintro i j k' - - - (h | ⟨h, h'⟩)
      exacts [Or.inl h, Or.inr ⟨hst i j h, h'⟩]))
    (fun i j S' s' hi hj hp => by
      have hi' : i < R := by rw [← hs.rows]; exact hi
      have hj' : j < C := by rw [← hs.cols]; exact hj
      rw [ht.rd hi' hj' trivial, hs.rd hi' hj' trivial, ha.rd hi' hj' trivial, hb.rd hi' hj' trivial,
        hc.rd hi' hj' trivial, hd.rd hi' hj' trivial]
      obtain ⟨a1, e1, q1⟩ := hp.wr hi' hj' hk (hG i j hi' hj')
      refine ⟨a1, ?_, q1.mono ?_⟩
      · simp only [bind, Except.bind, e1]
      · rintro i' j' k' - - - (h | ⟨h | h, h'⟩)
        · exact Or.inl (Or.inl h)
        · exact Or.inl (Or.inr ⟨h, h'⟩)
        · exact Or.inr ⟨h.1, h.2, h'⟩)
  refine ⟨x', e, p.mono ?_⟩
  rintro i j k' hi hj - (h | h)
  · exact Or.inl h
  · exact Or.inr ⟨⟨by rw [hs.rows]; exact hi, by rw [hs.cols]; exact hj⟩, h⟩

omit [Trig α] in
theorem wrRowSlice_ok {a : Arr2 α} {N C k0 k1 : Nat} {F : Nat → Nat → α} {S : Nat → Nat → Prop}
    (h : a.Holds N C F S) (h1 : k1 ≤ N) {i j : Nat} (hi : k0 + i < k1) (hj : j < C) {v : α}
    (hv : v = F (k0 + i) j) :
    ∃ a', a.wrRowSlice k0 k1 i j v = .ok a' ∧
      a'.Holds N C F (fun i' j' => S i' j' ∨ (i' = k0 + i ∧ j' = j)) := by
  obtain ⟨a', e, p⟩ := h.wr (v := v) (show k0 + i < N by omega) hj hv
  refine ⟨a', ?_, p⟩
  rw [Arr2.wrRowSlice, if_pos, e]
  rw [h.rows, h.cols]; omega

theorem xyz2lonlatArr_ok {xyz : Arr3 α} {R C N k0 k1 : Nat} {G : Nat → Nat → Nat → α} {o1 o2 : Arr2 α}
    {F1 F2 : Nat → Nat → α} {S : Nat → Nat → Prop}
    (hx : xyz.Holds R C 3 G (fun _ _ _ => True)) (hk : k0 + R = k1) (hN : k1 ≤ N)
    (h1 : o1.Holds N C F1 S) (h2 : o2.Holds N C F2 S)
    (hF : ∀ i j, i < R → j < C → Geo.cyXyz2lonlat Geo.earthRadius Geo.cyThr true
      (G i j 0, G i j 1, G i j 2) = (F1 (k0 + i) j, F2 (k0 + i) j)) :
    ∃ out', xyz2lonlatArr xyz k0 k1 (o1, o2) = .ok out' ∧
      out'.1.Holds N C F1 (fun i j => S i j ∨ (k0 ≤ i ∧ i < k1)) ∧
      out'.2.Holds N C F2 (fun i j => S i j ∨ (k0 ≤ i ∧ i < k1)) := by
  obtain ⟨x', e, p1, p2⟩ := loop2_ok (n := xyz.rows) (m := xyz.cols)
    (body := fun i j (out : Arr2 α × Arr2 α) => do
      let x ← xyz.rd i j 0
      let y ← xyz.rd i j 1
      let z ← xyz.rd i j 2
      let ll := Geo.cyXyz2lonlat Geo.earthRadius Geo.cyThr true (x, y, z)
      let lons ← out.1.wrRowSlice k0 k1 i j ll.1
      let lats ← out.2.wrRowSlice k0 k1 i j ll.2
      .ok (lons, lats)) (s := (o1, o2))
    (P := fun T s =>
      s.1.Holds N C F1 (fun i j => S i j ∨ ∃ i', T i' j ∧ i = k0 + i') ∧
      s.2.Holds N C F2 (fun i j => S i j ∨ ∃ i', T i' j ∧ i = k0 + i'))
    ⟨h1.mono (by rintro i j - - (h | ⟨_, h, _⟩); exacts [h, h.elim]),
     h2.mono (by rintro i j - - (h | ⟨_, h, _⟩); exacts [h, h.elim])⟩
    (fun S' T s hst hp => ⟨hp.1.mono (by
        rintro i j - - (h | ⟨a, h, e⟩); exacts [Or.inl h, Or.inr ⟨a, hst _ _ h, e⟩]),
      hp.2.mono (by
        rintro i j - - (h | ⟨a, h, e⟩); exacts [Or.inl h, Or.inr ⟨a, hst _ _ h, e⟩])⟩)
    (fun i j S' s hi hj hp => by
      have hi' : i < R := by rw [← hx.rows]; exact hi
      have hj' : j < C := by rw [← hx.cols]; exact hj
      rw [hx.rd hi' hj' (by omega) trivial, hx.rd hi' hj' (by omega) trivial,
        hx.rd hi' hj' (by omega) trivial]
      have hf := hF i j hi' hj'
      obtain ⟨a1, e1, q1⟩ := wrRowSlice_ok (k0 := k0) hp.1 hN (i := i) (by omega) hj'
        (v := (Geo.cyXyz2lonlat Geo.earthRadius Geo.cyThr true (G i j 0, G i j 1, G i j 2)).1) (by rw [hf])
      obtain ⟨a2, e2, q2⟩ := wrRowSlice_ok (k0 := k0) hp.2 hN (i := i) (by omega) hj'
        (v := (Geo.cyXyz2lonlat Geo.earthRadius Geo.cyThr true (G i j 0, G i j 1, G i j 2)).2) (by rw [hf])
      refine ⟨(a1, a2), ?_, q1.mono ?_, q2.mono ?_⟩
      · simp only [bind, Except.bind, e1, e2]
      all_goals
        rintro i' j' - - (h | ⟨a, h | ⟨h, h'⟩, e⟩)
        · exact Or.inl (Or.inl h)
        · exact Or.inl (Or.inr ⟨a, h, e⟩)
        · exact Or.inr ⟨by rw [e, h], h'⟩)
  refine ⟨x', e, p1.mono ?_, p2.mono ?_⟩
  all_goals
    rintro i j hi hj (h | h)
    · exact Or.inl h
    · refine Or.inr ⟨i - k0, ⟨?_, ?_⟩, ?_⟩
      · rw [hx.rows]; omega
      · rw [hx.cols]; exact hj
      · omega

/-! ### one scan -/

/-- the work arrays have the shapes they were allocated with -/
structure Shaped (cfg : Cfg) (bf : Bufs α) : Prop where
  t : bf.aTrack.rows = cfg.len * cfg.f ∧ bf.aTrack.cols = cfg.fineWidth
  s : bf.aScan.rows = cfg.len * cfg.f ∧ bf.aScan.cols = cfg.fineWidth
  a : bf.tmpA.rows = cfg.len * cfg.f ∧ bf.tmpA.cols = cfg.fineWidth
  b : bf.tmpB.rows = cfg.len * cfg.f ∧ bf.tmpB.cols = cfg.fineWidth
  c : bf.tmpC.rows = cfg.len * cfg.f ∧ bf.tmpC.cols = cfg.fineWidth
  d : bf.tmpD.rows = cfg.len * cfg.f ∧ bf.tmpD.cols = cfg.fineWidth
  xc : bf.xyzCoarse.rows = cfg.len ∧ bf.xyzCoarse.cols = cfg.width ∧ bf.xyzCoarse.depth = 3
  xf : bf.xyzFine.rows = cfg.len * cfg.f ∧ bf.xyzFine.cols = cfg.fineWidth ∧ bf.xyzFine.depth = 3

theorem geom_bounds {cfg : Cfg} (hg : Geometry cfg) :
    2 ≤ cfg.len ∧ 2 ≤ cfg.width ∧ cfg.len - 1 ≤ cfg.len * cfg.f ∧ cfg.width - 1 ≤ cfg.fineWidth ∧ 1 ≤ cfg.f := by
  cases hg with
  | km1 f hf => simp only; omega
  | km5 k w hk hw => simp only; omega

/-- the supported geometries have scans and fine columns -/
theorem geom_run {cfg : Cfg} (hg : Geometry cfg) : ¬ (cfg.len = 0 ∨ (cfg.len ≠ 10 ∧ cfg.fineWidth < 2)) := by
  cases hg with
  | km1 f hf => simp
  | km5 k w hk hw => simp only; omega

theorem cellRow_lt {cfg : Cfg} (hg : Geometry cfg) (r : Nat) : cellRow cfg r + 1 < cfg.len := by
  cases hg with
  | km1 f hf => simp only [cellRow, if_true]; omega
  | km5 k w hk hw => simp [cellRow]

theorem cellCol_lt {cfg : Cfg} (hg : Geometry cfg) (c : Nat) : cellCol cfg c + 1 < cfg.width := by
  cases hg with
  | km1 f hf => simp only [cellCol, if_true]; omega
  | km5 k w hk hw =>
    simp only [cellCol, show ¬ ((2 : Nat) = 10) by omega, if_false]; rcases hw with rfl | rfl <;> omega

theorem coords_len {cfg : Cfg} : ((getCoords cfg).1 : Arr1 α).len = cfg.fineWidth ∧
    ((getCoords cfg).2 : Arr1 α).len = cfg.len * cfg.f := by
  unfold getCoords
  split
  · exact ⟨rfl, rfl⟩
  · exact ⟨rfl, by simp only; ring⟩

theorem getAtrackAscan_ok {cfg : Cfg} (hg : Geometry cfg) {satz : Arr2 α} (hr : satz.rows = cfg.len)
    (hc : satz.cols = cfg.width) {b : Bufs α} (hb : Shaped cfg b) :
    ∃ b', getAtrackAscan cfg satz (getCoords cfg).1 (getCoords cfg).2 b = .ok b' ∧ Shaped cfg b' ∧
      b'.out = b.out ∧ b'.xyzCoarse = b.xyzCoarse ∧
      b'.aTrack.Holds (cfg.len * cfg.f) cfg.fineWidth (fun r c => (trackScan cfg satz.cell 0 r c).1)
        (fun _ _ => True) ∧
      b'.aScan.Holds (cfg.len * cfg.f) cfg.fineWidth (fun r c => (trackScan cfg satz.cell 0 r c).2)
        (fun _ _ => True) := by
  obtain ⟨g1, g2, g3, g4, g5⟩ := geom_bounds hg
  obtain ⟨ea, e1, pe, pa⟩ := computeExpansionAlignment_ok (sw := cfg.perKm)
    (satzA := satz.topLeft (satz.rows - 1) (satz.cols - 1))
    (satzB := (satz.topLeft (satz.rows - 1) satz.cols).from_ 0 1)
    (r := cfg.len - 1) (c := cfg.width - 1) (R := cfg.len * cfg.f) (C := cfg.fineWidth)
    (o1 := b.tmpA) (o2 := b.tmpB)
    (by simp only [Arr2.topLeft]; omega) (by simp only [Arr2.topLeft]; omega)
    (by simp only [Arr2.topLeft, Arr2.from_]; omega) (by simp only [Arr2.topLeft, Arr2.from_]; omega)
    g3 g4 hb.a.1 hb.a.2 hb.b.1 hb.b.2
  obtain ⟨c', e2, pc⟩ := expand_ok hg (inp := ea.1.topLeft (cfg.len - 1) (cfg.width - 1)) (arr := b.tmpC)
    (by simp only [Arr2.topLeft, pe.rows]; omega) (by simp only [Arr2.topLeft, pe.cols]; omega)
    hb.c.1 hb.c.2
  obtain ⟨d', e3, pd⟩ := expand_ok hg (inp := ea.2.topLeft (cfg.len - 1) (cfg.width - 1)) (arr := b.tmpD)
    (by simp only [Arr2.topLeft, pa.rows]; omega) (by simp only [Arr2.topLeft, pa.cols]; omega)
    hb.d.1 hb.d.2
  obtain ⟨ts, e4, pt, ps⟩ := calculateAtrackAscan_ok (cfg := cfg) (x := (getCoords cfg).1)
    (y := (getCoords cfg).2) coords_len.2 coords_len.1 pc pd hb.t.1 hb.t.2 hb.s.1 hb.s.2
  refine ⟨{ b with tmpA := ea.1, tmpB := ea.2, tmpC := c', tmpD := d', aTrack := ts.1, aScan := ts.2 }, ?_, ?_,
    rfl, rfl, ?_, ?_⟩
  · unfold getAtrackAscan
    simp only [bind, Except.bind, e1, e2, e3, e4]
  · exact ⟨⟨pt.rows, pt.cols⟩, ⟨ps.rows, ps.cols⟩, ⟨pe.rows, pe.cols⟩, ⟨pa.rows, pa.cols⟩,
      ⟨pc.rows, pc.cols⟩, ⟨pd.rows, pd.cols⟩, hb.xc, hb.xf⟩
  all_goals
    refine ⟨by first | exact pt.rows | exact ps.rows, by first | exact pt.cols | exact ps.cols, ?_⟩
    intro i j hi hj _
    have hR := cellRow_lt hg i
    have hC := cellCol_lt hg j
    have hee := pe.cell (cellRow cfg i) (cellCol cfg j) (by omega) (by omega) ⟨by omega, by omega⟩
    have haa := pa.cell (cellRow cfg i) (cellCol cfg j) (by omega) (by omega) ⟨by omega, by omega⟩
    first | rw [pt.cell i j hi hj trivial] | rw [ps.cell i j hi hj trivial]
    simp only [Arr2.topLeft, Arr2.from_, Nat.add_zero] at hee haa
    simp only [Arr2.topLeft, hee, haa, trackScan, Nat.zero_add]

theorem computeFineXyz_ok {cfg : Cfg} (hg : Geometry cfg) {b : Bufs α} (hb : Shaped cfg b)
    {T S : Nat → Nat → α} {X : Nat → Nat → Nat → α}
    (ht : b.aTrack.Holds (cfg.len * cfg.f) cfg.fineWidth T (fun _ _ => True))
    (hs : b.aScan.Holds (cfg.len * cfg.f) cfg.fineWidth S (fun _ _ => True))
    (hx : b.xyzCoarse.Holds cfg.len cfg.width 3 X (fun _ _ _ => True)) :
    ∃ b', computeFineXyz cfg b = .ok b' ∧ Shaped cfg b' ∧ b'.out = b.out ∧
      b'.xyzFine.Holds (cfg.len * cfg.f) cfg.fineWidth 3
        (fun r c k => fineComponent (T r c) (S r c)
          (X (cellRow cfg r) (cellCol cfg c) k) (X (cellRow cfg r) (cellCol cfg c + 1) k)
          (X (cellRow cfg r + 1) (cellCol cfg c + 1) k) (X (cellRow cfg r + 1) (cellCol cfg c) k))
        (fun _ _ _ => True) := by
  obtain ⟨g1, g2, g3, g4, g5⟩ := geom_bounds hg
  set G : Nat → Nat → Nat → α := fun r c k => fineComponent (T r c) (S r c)
          (X (cellRow cfg r) (cellCol cfg c) k) (X (cellRow cfg r) (cellCol cfg c + 1) k)
          (X (cellRow cfg r + 1) (cellCol cfg c + 1) k) (X (cellRow cfg r + 1) (cellCol cfg c) k) with hG
  obtain ⟨b', e, q⟩ := loop_ok (n := 3)
    (body := fun k (b : Bufs α) => do
      let p := b.xyzCoarse.plane k
      let ta ← expand cfg (p.topLeft (p.rows - 1) (p.cols - 1)) b.tmpA
      let tb ← expand cfg ((p.topLeft (p.rows - 1) p.cols).from_ 0 1) b.tmpB
      let tc ← expand cfg (p.from_ 1 1) b.tmpC
      let td ← expand cfg ((p.topLeft p.rows (p.cols - 1)).from_ 1 0) b.tmpD
      let fine ← computeFineXyzComponent b.aTrack b.aScan ta tb tc td k b.xyzFine
      .ok { b with tmpA := ta, tmpB := tb, tmpC := tc, tmpD := td, xyzFine := fine }) (s := b)
    (P := fun k b' => Shaped cfg b' ∧ b'.out = b.out ∧ b'.aTrack = b.aTrack ∧ b'.aScan = b.aScan ∧
      b'.xyzCoarse = b.xyzCoarse ∧
      b'.xyzFine.Holds (cfg.len * cfg.f) cfg.fineWidth 3 G (fun _ _ k' => k' < k))
    ⟨hb, rfl, rfl, rfl, rfl, hb.xf.1, hb.xf.2.1, hb.xf.2.2,
      fun _ _ k _ _ _ h => absurd h (Nat.not_lt_zero k)⟩
    (fun k b1 hk ⟨h1, h2, h3, h4, h5, h6⟩ => by
      have hrows : (b1.xyzCoarse.plane k).rows = cfg.len := h1.xc.1
      have hcols : (b1.xyzCoarse.plane k).cols = cfg.width := h1.xc.2.1
      obtain ⟨ta, ea, pa⟩ := expand_ok hg
        (inp := (b1.xyzCoarse.plane k).topLeft ((b1.xyzCoarse.plane k).rows - 1) ((b1.xyzCoarse.plane k).cols - 1))
        (arr := b1.tmpA) (by simp only [Arr2.topLeft]; omega) (by simp only [Arr2.topLeft]; omega) h1.a.1 h1.a.2
      obtain ⟨tb, eb, pb⟩ := expand_ok hg
        (inp := ((b1.xyzCoarse.plane k).topLeft ((b1.xyzCoarse.plane k).rows - 1)
          (b1.xyzCoarse.plane k).cols).from_ 0 1)
        (arr := b1.tmpB) (by simp only [Arr2.topLeft, Arr2.from_]; omega)
        (by simp only [Arr2.topLeft, Arr2.from_]; omega) h1.b.1 h1.b.2
      obtain ⟨tc, ec, pc⟩ := expand_ok hg
        (inp := (b1.xyzCoarse.plane k).from_ 1 1)
        (arr := b1.tmpC) (by simp only [Arr2.from_]; omega)
        (by simp only [Arr2.from_]; omega) h1.c.1 h1.c.2
      obtain ⟨td, ed, pd⟩ := expand_ok hg
        (inp := ((b1.xyzCoarse.plane k).topLeft (b1.xyzCoarse.plane k).rows
          ((b1.xyzCoarse.plane k).cols - 1)).from_ 1 0)
        (arr := b1.tmpD) (by simp only [Arr2.topLeft, Arr2.from_]; omega)
        (by simp only [Arr2.topLeft, Arr2.from_]; omega) h1.d.1 h1.d.2
      rw [← h3] at ht
      rw [← h4] at hs
      rw [← h5] at hx
      obtain ⟨fine, ef, pf⟩ := computeFineXyzComponent_ok (k := k) ht hs pa pb pc pd h6 hk
        (fun i j hi hj => by
          have hR := cellRow_lt hg i
          have hC := cellCol_lt hg j
          simp only [hG, Arr2.topLeft, Arr2.from_, Arr3.plane, Nat.add_zero]
          rw [hx.cell _ _ k (by omega) (by omega) hk trivial, hx.cell _ _ k (by omega) (by omega) hk trivial,
            hx.cell _ _ k (by omega) (by omega) hk trivial, hx.cell _ _ k (by omega) (by omega) hk trivial])
      refine ⟨{ b1 with tmpA := ta, tmpB := tb, tmpC := tc, tmpD := td, xyzFine := fine }, ?_, ?_, h2, h3, h4, h5,
        pf.mono ?_⟩
      · simp only [bind, Except.bind, ea, eb, ec, ed, ef]
      · exact ⟨h1.t, h1.s, ⟨pa.rows, pa.cols⟩, ⟨pb.rows, pb.cols⟩, ⟨pc.rows, pc.cols⟩, ⟨pd.rows, pd.cols⟩,
          h1.xc, ⟨pf.rows, pf.cols, pf.depth⟩⟩
      · intro i j k' _ _ _ h
        omega)
  obtain ⟨q1, q2, _, _, _, q6⟩ := q
  exact ⟨b', e, q1, q2, q6.mono (fun i j k _ _ hk _ => hk)⟩

theorem scanStep_core {cfg : Cfg} (hg : Geometry cfg) {lon lat satz : Arr2 α} {N s : Nat}
    (hr : (s + 1) * cfg.len ≤ satz.rows) (hc : satz.cols = cfg.width)
    (hN : (s + 1) * cfg.len * cfg.f ≤ N) {b : Bufs α} (hb : Shaped cfg b)
    {X : Nat → Nat → Nat → α}
    (hX : ∃ xyz, lonlat2xyzArr (lon.rowSlice (s * cfg.len) ((s + 1) * cfg.len))
        (lat.rowSlice (s * cfg.len) ((s + 1) * cfg.len)) b.xyzCoarse = .ok xyz ∧
      xyz.Holds cfg.len cfg.width 3 (fun i j k => X (s * cfg.len + i) j k) (fun _ _ _ => True))
    {F : Nat → Nat → α × α} {S : Nat → Nat → Prop}
    (ho1 : b.out.1.Holds N cfg.fineWidth (fun r c => (F r c).1) S)
    (ho2 : b.out.2.Holds N cfg.fineWidth (fun r c => (F r c).2) S)
    (hF : ∀ r c, r < cfg.len * cfg.f → c < cfg.fineWidth →
      F (s * cfg.len * cfg.f + r) c = scanPixel cfg X satz.cell (s * cfg.len) r c) :
    ∃ b', scanStep cfg lon lat satz (getCoords cfg).1 (getCoords cfg).2 s b = .ok b' ∧ Shaped cfg b' ∧
      b'.out.1.Holds N cfg.fineWidth (fun r c => (F r c).1)
        (fun i j => S i j ∨ (s * cfg.len * cfg.f ≤ i ∧ i < (s + 1) * cfg.len * cfg.f)) ∧
      b'.out.2.Holds N cfg.fineWidth (fun r c => (F r c).2)
        (fun i j => S i j ∨ (s * cfg.len * cfg.f ≤ i ∧ i < (s + 1) * cfg.len * cfg.f)) := by
  have hs1 : (s + 1) * cfg.len = s * cfg.len + cfg.len := by ring
  have hs1f : (s + 1) * cfg.len * cfg.f = s * cfg.len * cfg.f + cfg.len * cfg.f := by ring
  have hshape : (satz.rowSlice (s * cfg.len) ((s + 1) * cfg.len)).rows = cfg.len := by
    simp only [Arr2.rowSlice]; omega
  obtain ⟨b1, e1, sh1, o1, xc1, pt, ps⟩ := getAtrackAscan_ok hg
    (satz := satz.rowSlice (s * cfg.len) ((s + 1) * cfg.len)) hshape hc hb
  obtain ⟨xyz, e2, px⟩ := hX
  rw [← xc1] at e2
  obtain ⟨b2, e3, sh2, o2, pf⟩ := computeFineXyz_ok hg (b := { b1 with xyzCoarse := xyz })
    ⟨sh1.t, sh1.s, sh1.a, sh1.b, sh1.c, sh1.d, ⟨px.rows, px.cols, px.depth⟩, sh1.xf⟩ pt ps px
  have hout : b2.out = b.out := by rw [o2]; exact o1
  obtain ⟨out', e4, q1, q2⟩ := xyz2lonlatArr_ok (k0 := s * cfg.len * cfg.f) (k1 := (s + 1) * cfg.len * cfg.f)
    (N := N) (o1 := b.out.1) (o2 := b.out.2) pf (by omega) hN ho1 ho2
    (fun i j hi hj => by
      rw [Prod.mk.eta, hF i j hi hj]
      unfold scanPixel fineXyz trackScan
      simp only [Arr2.rowSlice, Nat.zero_add, Nat.add_assoc])
  refine ⟨{ b2 with out := out' }, ?_, ?_, q1, q2⟩
  · unfold scanStep
    simp only [bind, Except.bind, e1, e2, e3]
    rw [hout, e4]
  · exact ⟨sh2.t, sh2.s, sh2.a, sh2.b, sh2.c, sh2.d, sh2.xc, sh2.xf⟩

theorem pixel_block {cfg : Cfg} (lon lat satz : Nat → Nat → α) {s r c : Nat} (hr : r < cfg.len * cfg.f) :
    pixel cfg lon lat satz (s * cfg.len * cfg.f + r) c = scanPixel cfg (ties lon lat) satz (s * cfg.len) r c := by
  unfold pixel
  have hd : (s * cfg.len * cfg.f + r) / (cfg.len * cfg.f) = s := by
    rw [Nat.mul_assoc]; exact div_block hr
  have hm : (s * cfg.len * cfg.f + r) % (cfg.len * cfg.f) = r := by
    rw [Nat.mul_assoc, Nat.mul_comm s, Nat.mul_add_mod]; exact Nat.mod_eq_of_lt hr
  rw [hd, hm]

/-- **Refinement**: the imperative program computes the per-pixel formula on the whole scans, whatever the initial
memory; rows after the last whole scan keep the initial memory. -/
theorem interpolateCfg_rem {cfg : Cfg} (hg : Geometry cfg) {lon lat satz : Arr2 α} {n m : Nat} (hm : m < cfg.len)
    (h1 : lon.rows = n * cfg.len + m ∧ lon.cols = cfg.width)
    (h2 : lat.rows = n * cfg.len + m ∧ lat.cols = cfg.width)
    (h3 : satz.rows = n * cfg.len + m ∧ satz.cols = cfg.width) (junk : Nat → Nat → Nat → Nat → α) :
    ∃ out, interpolateCfg cfg lon lat satz junk = .ok out ∧
      out.1.Holds (satz.rows * cfg.f) cfg.fineWidth
        (fun r c => if r < n * cfg.len * cfg.f then (pixel cfg lon.cell lat.cell satz.cell r c).1
          else junk 8 0 r c) (fun _ _ => True) ∧
      out.2.Holds (satz.rows * cfg.f) cfg.fineWidth
        (fun r c => if r < n * cfg.len * cfg.f then (pixel cfg lon.cell lat.cell satz.cell r c).2
          else junk 9 0 r c) (fun _ _ => True) := by
  obtain ⟨g1, g2, g3, g4, g5⟩ := geom_bounds hg
  have hlen : 0 < cfg.len := by omega
  set F : Nat → Nat → α × α := fun r c =>
    (if r < n * cfg.len * cfg.f then (pixel cfg lon.cell lat.cell satz.cell r c).1 else junk 8 0 r c,
     if r < n * cfg.len * cfg.f then (pixel cfg lon.cell lat.cell satz.cell r c).2 else junk 9 0 r c) with hFdef
  obtain ⟨b', e, sh, p1, p2⟩ := loop_ok (n := n)
    (body := scanStep cfg lon lat satz (getCoords cfg).1 (getCoords cfg).2) (s := initBufs cfg satz.rows junk)
    (P := fun s b => Shaped cfg b ∧
      b.out.1.Holds (satz.rows * cfg.f) cfg.fineWidth (fun r c => (F r c).1)
        (fun i _ => i < s * cfg.len * cfg.f ∨ n * cfg.len * cfg.f ≤ i) ∧
      b.out.2.Holds (satz.rows * cfg.f) cfg.fineWidth (fun r c => (F r c).2)
        (fun i _ => i < s * cfg.len * cfg.f ∨ n * cfg.len * cfg.f ≤ i))
    ⟨⟨⟨rfl, rfl⟩, ⟨rfl, rfl⟩, ⟨rfl, rfl⟩, ⟨rfl, rfl⟩, ⟨rfl, rfl⟩, ⟨rfl, rfl⟩, ⟨rfl, rfl, rfl⟩, ⟨rfl, rfl, rfl⟩⟩,
     ⟨rfl, rfl, fun i j _ _ h => by
        have : ¬ i < n * cfg.len * cfg.f := by
          rcases h with h | h
          · simp at h
          · omega
        simp only [hFdef, if_neg this]; rfl⟩,
     ⟨rfl, rfl, fun i j _ _ h => by
        have : ¬ i < n * cfg.len * cfg.f := by
          rcases h with h | h
          · simp at h
          · omega
        simp only [hFdef, if_neg this]; rfl⟩⟩
    (fun s b hs ⟨sh, p1, p2⟩ => by
      have hsn : (s + 1) * cfg.len ≤ n * cfg.len := Nat.mul_le_mul_right _ hs
      have hsnf : (s + 1) * cfg.len * cfg.f ≤ n * cfg.len * cfg.f := Nat.mul_le_mul_right _ hsn
      have hN : n * cfg.len * cfg.f ≤ satz.rows * cfg.f := Nat.mul_le_mul_right _ (by omega)
      have hs1 : (s + 1) * cfg.len = s * cfg.len + cfg.len := by ring
      have hs1f : (s + 1) * cfg.len * cfg.f = s * cfg.len * cfg.f + cfg.len * cfg.f := by ring
      have hshape : ∀ a : Arr2 α, a.rows = n * cfg.len + m →
          (a.rowSlice (s * cfg.len) ((s + 1) * cfg.len)).rows = cfg.len := by
        intro a ha
        simp only [Arr2.rowSlice, ha]; omega
      obtain ⟨b', e, sh', q1, q2⟩ := scanStep_core hg (X := ties lon.cell lat.cell) (s := s) (by omega) h3.2
        (by omega) sh
        (by
          obtain ⟨xyz, e2, px⟩ := lonlat2xyzArr_ok (lons := lon.rowSlice (s * cfg.len) ((s + 1) * cfg.len))
            (lats := lat.rowSlice (s * cfg.len) ((s + 1) * cfg.len)) (xyz := b.xyzCoarse)
            (hshape _ h1.1) h1.2 (hshape _ h2.1) h2.2 sh.xc.1 sh.xc.2.1 sh.xc.2.2
          exact ⟨xyz, e2, px⟩) p1 p2 (fun r c hr hc => by
        have hlt : s * cfg.len * cfg.f + r < n * cfg.len * cfg.f := by omega
        rw [← pixel_block _ _ _ hr]
        simp only [hFdef, if_pos hlt])
      refine ⟨b', e, sh', q1.mono ?_, q2.mono ?_⟩
      all_goals
        intro i j _ _ h
        by_cases c : i < s * cfg.len * cfg.f ∨ n * cfg.len * cfg.f ≤ i
        · exact Or.inl c
        · exact Or.inr (by omega))
  refine ⟨b'.out, ?_, p1.mono (fun i j hi _ _ => by omega), p2.mono (fun i j hi _ _ => by omega)⟩
  have hd : satz.rows / cfg.len = n := by
    rw [h3.1]; exact div_block hm
  unfold interpolateCfg
  rw [if_neg (geom_run hg), hd]
  simp only [bind, Except.bind, e]

/-- **Refinement** for whole scans. -/
theorem interpolateCfg_ok {cfg : Cfg} (hg : Geometry cfg) {lon lat satz : Arr2 α} {n : Nat}
    (h1 : lon.rows = n * cfg.len ∧ lon.cols = cfg.width) (h2 : lat.rows = n * cfg.len ∧ lat.cols = cfg.width)
    (h3 : satz.rows = n * cfg.len ∧ satz.cols = cfg.width) (junk : Nat → Nat → Nat → Nat → α) :
    ∃ out, interpolateCfg cfg lon lat satz junk = .ok out ∧
      out.1.Holds (n * cfg.len * cfg.f) cfg.fineWidth
        (fun r c => (pixel cfg lon.cell lat.cell satz.cell r c).1) (fun _ _ => True) ∧
      out.2.Holds (n * cfg.len * cfg.f) cfg.fineWidth
        (fun r c => (pixel cfg lon.cell lat.cell satz.cell r c).2) (fun _ _ => True) := by
  obtain ⟨g1, g2, g3, g4, g5⟩ := geom_bounds hg
  obtain ⟨out, e, p1, p2⟩ := interpolateCfg_rem hg (m := 0) (by omega) h1 h2 h3 junk
  rw [h3.1] at p1 p2
  refine ⟨out, e, ⟨p1.rows, p1.cols, ?_⟩, ⟨p2.rows, p2.cols, ?_⟩⟩
  · intro i j hi hj h
    rw [p1.cell i j hi hj h, if_pos hi]
  · intro i j hi hj h
    rw [p2.cell i j hi hj h, if_pos hi]

/-- `lonlat2xyz` on fewer columns than the work array: the other columns keep their previous content. -/
theorem lonlat2xyzArr_narrow {lons lats : Arr2 α} {xyz : Arr3 α} {R C : Nat}
    (hlr : lons.rows = R) (hlc : lons.cols ≤ C) (har : lats.rows = R) (hac : lats.cols = lons.cols)
    (hxr : xyz.rows = R) (hxc : xyz.cols = C) (hxd : xyz.depth = 3) :
    ∃ xyz', lonlat2xyzArr lons lats xyz = .ok xyz' ∧
      xyz'.Holds R C 3 (fun i j k => if j < lons.cols then comp (tieXyz lons.cell lats.cell i j) k
        else xyz.cell i j k) (fun _ _ _ => True) := by
  set F : Nat → Nat → Nat → α := fun i j k => if j < lons.cols then comp (tieXyz lons.cell lats.cell i j) k
        else xyz.cell i j k with hF
  obtain ⟨x', e, p⟩ := loop2_ok (n := lons.rows) (m := lons.cols)
    (body := fun i j (xyz : Arr3 α) => do
      let lon ← lons.rd i j
      let lat ← lats.rd i j
      let p := Geo.cyLonlat2xyz Geo.earthRadius lon lat
      let xyz ← xyz.wr i j 0 p.1
      let xyz ← xyz.wr i j 1 p.2.1
      xyz.wr i j 2 p.2.2) (s := xyz)
    (P := fun T s => s.Holds R C 3 F (fun i j _ => T i j ∨ lons.cols ≤ j))
    ⟨hxr, hxc, hxd, fun i j k _ _ _ h => by
      rcases h with h | h
      · exact h.elim
      · simp only [hF]; rw [if_neg (by omega)]⟩
    (fun S T s hst hp => hp.mono (fun i j k _ _ _ h => by
      rcases h with h | h
      · exact Or.inl (hst i j h)
      · exact Or.inr h))
    (fun i j S s hi hj hp => by
      have hi' : i < R := by omega
      have hj' : j < C := by omega
      rw [rd_bind (by omega) (by omega), rd_bind (by omega) (by omega)]
      obtain ⟨x', e, p⟩ := arr3_wr3 (p := Geo.cyLonlat2xyz Geo.earthRadius (lons.cell i j) (lats.cell i j))
        hp hi' hj' (fun k _ => by simp only [hF]; rw [if_pos hj]; rfl)
      exact ⟨x', e, p.mono (fun i j k _ _ _ h => by tauto)⟩)
  exact ⟨x', e, p.mono (fun i j k hi hj _ _ => by omega)⟩

/-- Refinement for a single scan whose longitudes and latitudes have too few columns: the missing tie positions are
the initial content of the work array `coarse_xyz`. -/
theorem interpolateCfg_narrow {cfg : Cfg} (hg : Geometry cfg) {lon lat satz : Arr2 α}
    (h1 : lon.rows = cfg.len ∧ lon.cols ≤ cfg.width) (h2 : lat.rows = cfg.len ∧ lat.cols = lon.cols)
    (h3 : satz.rows = cfg.len ∧ satz.cols = cfg.width) (junk : Nat → Nat → Nat → Nat → α) :
    ∃ out, interpolateCfg cfg lon lat satz junk = .ok out ∧
      out.1.Holds (cfg.len * cfg.f) cfg.fineWidth
        (fun r c => (scanPixel cfg (fun i j k => if j < lon.cols then ties lon.cell lat.cell i j k
          else junk 6 i j k) satz.cell 0 r c).1) (fun _ _ => True) ∧
      out.2.Holds (cfg.len * cfg.f) cfg.fineWidth
        (fun r c => (scanPixel cfg (fun i j k => if j < lon.cols then ties lon.cell lat.cell i j k
          else junk 6 i j k) satz.cell 0 r c).2) (fun _ _ => True) := by
  have hlen : 0 < cfg.len := by cases hg <;> simp
  have hshape : Shaped cfg (initBufs cfg satz.rows junk) :=
    ⟨⟨rfl, rfl⟩, ⟨rfl, rfl⟩, ⟨rfl, rfl⟩, ⟨rfl, rfl⟩, ⟨rfl, rfl⟩, ⟨rfl, rfl⟩, ⟨rfl, rfl, rfl⟩, ⟨rfl, rfl, rfl⟩⟩
  have hslice : ∀ a : Arr2 α, a.rows = cfg.len → (a.rowSlice (0 * cfg.len) ((0 + 1) * cfg.len)).rows = cfg.len := by
    intro a ha
    simp only [Arr2.rowSlice, ha]; omega
  obtain ⟨b', e, -, p1, p2⟩ := scanStep_core hg (lon := lon) (lat := lat) (satz := satz)
    (N := cfg.len * cfg.f) (s := 0) (by rw [h3.1]; omega) h3.2 (by rw [Nat.zero_add, Nat.one_mul]) hshape
    (X := fun i j k => if j < lon.cols then ties lon.cell lat.cell i j k else junk 6 i j k)
    (by
      obtain ⟨xyz, e2, px⟩ := lonlat2xyzArr_narrow (lons := lon.rowSlice (0 * cfg.len) ((0 + 1) * cfg.len))
        (lats := lat.rowSlice (0 * cfg.len) ((0 + 1) * cfg.len)) (xyz := (initBufs cfg satz.rows junk).xyzCoarse)
        (R := cfg.len) (C := cfg.width) (hslice _ h1.1) h1.2 (hslice _ h2.1) h2.2 rfl rfl rfl
      refine ⟨xyz, e2, ?_⟩
      simpa only [Arr2.rowSlice, Nat.zero_mul, Nat.zero_add, initBufs, ties, tieXyz] using px)
    (F := fun r c => scanPixel cfg (fun i j k => if j < lon.cols then ties lon.cell lat.cell i j k
          else junk 6 i j k) satz.cell 0 r c) (S := fun _ _ => False)
    ⟨by simp only [initBufs, h3.1], rfl, fun _ _ _ _ h => h.elim⟩
    ⟨by simp only [initBufs, h3.1], rfl, fun _ _ _ _ h => h.elim⟩
    (fun r c _ _ => by simp only [Nat.zero_mul, Nat.zero_add])
  refine ⟨b'.out, ?_, p1.mono (fun i j hi _ _ => Or.inr ?_), p2.mono (fun i j hi _ _ => Or.inr ?_)⟩
  · unfold interpolateCfg
    have hd : satz.rows / cfg.len = 1 := by rw [h3.1]; exact Nat.div_self hlen
    rw [if_neg (geom_run hg), hd]
    have : loop 1 (scanStep cfg lon lat satz (getCoords cfg).1 (getCoords cfg).2) (initBufs cfg satz.rows junk)
        = .ok b' := by simp [loop, e, bind, Except.bind]
    simp only [this, bind, Except.bind]
  all_goals
    simp only [Nat.zero_mul, Nat.zero_add, Nat.one_mul]
    exact ⟨Nat.zero_le _, hi⟩

end

end Verif.Modis
