import Verif.Model.Interpolator
import Verif.Base.Ov

/-!
# `fill_borders` in two arithmetics on the same numbers
-/

namespace Verif.Interpolator
open Verif

/-- the same outcome, and the results satisfy `P` -/
def Both {γ : Type} (x y : Except Err γ) (P : γ → Prop) : Prop := x = y ∧ ∀ o, y = .ok o → P o

namespace Both
variable {β γ : Type} {P : γ → Prop} {Q : β → Prop}

theorem bind {x y : Except Err β} {f g : β → Except Err γ} (h : Both x y Q) (hf : ∀ b, Q b → Both (f b) (g b) P) : Both (x >>= f) (y >>= g) P := by
  obtain ⟨rfl, hq⟩ := h
  cases x with
  | error e => exact ⟨rfl, fun o ho => by cases ho⟩
  | ok b => exact hf b (hq b rfl)

theorem of {x : Except Err γ} (h : ∀ o, x = .ok o → P o) : Both x x P := ⟨rfl, h⟩
theorem ok {x y : γ} (e : x = y) (h : P y) : Both (.ok x) (.ok y) P := ⟨by rw [e], fun o ho => by cases ho; exact h⟩
theorem error (e : Err) : Both (.error e) (.error e) P := ⟨rfl, fun o ho => by cases ho⟩

theorem mapM {f g : β → Except Err γ} : ∀ (l : List β), (∀ b ∈ l, Both (f b) (g b) P) → Both (l.mapM f) (l.mapM g) (fun o => ∀ x ∈ o, P x)
  | [], _ => by
    rw [List.mapM_nil, List.mapM_nil]
    exact ok rfl (by simp)
  | b :: l, h => by
    rw [List.mapM_cons, List.mapM_cons]
    refine bind (h b (by simp)) fun c hc => bind (mapM l (fun b' hb' => h b' (by simp [hb']))) fun cs hcs => ?_
    refine ok rfl ?_
    intro x hx
    rcases List.mem_cons.1 hx with rfl | hx
    · exact hc
    · exact hcs x hx

end Both

/-- Two arithmetics that compare alike and extrapolate alike: `pos` holds of the positions, `sz k` bounds what `k` extrapolations make of the
data, `N` bounds the numbers of lines. -/
structure Agree {α : Type} (A B : Arith α) (pos : α → Prop) (sz : Nat → α → Prop) (K N : Nat) : Prop where
  lt : A.lt = B.lt
  le : A.le = B.le
  eq : A.eq = B.eq
  mono : ∀ k x, sz k x → sz (k + 1) x
  ext : ∀ k p0 p1 d0 d1 x, k < K → pos p0 → pos p1 → pos x → sz k d0 → sz k d1 →
    @extrap1 α A p0 p1 d0 d1 x = @extrap1 α B p0 p1 d0 d1 x ∧ sz (k + 1) (@extrap1 α B p0 p1 d0 d1 x)
  ratio : ∀ l h : Nat, 0 < l → 0 < h → l ≤ N → h ≤ N → A.div (A.ofInt l) (A.ofInt h) = B.div (B.ofInt l) (B.ofInt h)
  quot : ∀ n l h : Nat, 0 < l → 0 < h → n ≤ 2 * N → l ≤ N → h ≤ N →
    A.div (A.ofInt n) (B.div (B.ofInt l) (B.ofInt h)) = B.div (B.ofInt n) (B.div (B.ofInt l) (B.ofInt h))

variable {α : Type} {A B : Arith α} {pos : α → Prop} {sz : Nat → α → Prop} {K N : Nat}

theorem idx_mem {β : Type} {l : List β} {i : Nat} : ∀ o, idx l i = .ok o → o ∈ l := by
  intro o ho
  unfold idx at ho
  split at ho
  · rename_i x hx
    cases ho
    exact List.mem_of_getElem? hx
  · cases ho

theorem idxEnd_mem {β : Type} {l : List β} {i : Nat} : ∀ o, idxEnd l i = .ok o → o ∈ l := by
  intro o ho
  unfold idxEnd at ho
  split at ho
  · exact idx_mem o ho
  · cases ho

/-- all numbers of a matrix satisfy `P` -/
def AllM (P : α → Prop) (d : Mat α) : Prop := ∀ row ∈ d, ∀ x ∈ row, P x

private theorem zip_same {f g : α → α → α} {P Q : α → Prop} (hf : ∀ a b, P a → P b → f a b = g a b ∧ Q (g a b)) :
    ∀ (l k : List α), (∀ x ∈ l, P x) → (∀ x ∈ k, P x) → List.zipWith f l k = List.zipWith g l k ∧ ∀ x ∈ List.zipWith g l k, Q x
  | [], _, _, _ => by simp
  | _ :: _, [], _, _ => by simp
  | a :: l, b :: k, hl, hk => by
    obtain ⟨e, q⟩ := hf a b (hl a (by simp)) (hk b (by simp))
    obtain ⟨e', q'⟩ := zip_same hf l k (fun x hx => hl x (by simp [hx])) (fun x hx => hk x (by simp [hx]))
    simp only [List.zipWith_cons_cons]
    refine ⟨by rw [e, e'], ?_⟩
    intro x hx
    rcases List.mem_cons.1 hx with rfl | hx
    · exact q
    · exact q' x hx

theorem linearExtrapolate_same (h : Agree A B pos sz K N) {k : Nat} (hk : k < K) {ps : List α} {data : List (List α)} {x : α}
    (hp : ∀ p ∈ ps, pos p) (hd : AllM (sz k) data) (hx : pos x) :
    Both (@linearExtrapolate α A ps data x) (@linearExtrapolate α B ps data x) (fun o => ∀ y ∈ o, sz (k + 1) y) := by
  unfold linearExtrapolate
  split
  · rename_i p0 p1 d0 d1
    obtain ⟨e, q⟩ := zip_same (f := fun a b => @extrap1 α A p0 p1 a b x) (g := fun a b => @extrap1 α B p0 p1 a b x) (P := sz k) (Q := sz (k + 1))
      (fun a b ha hb => h.ext k p0 p1 a b x hk (hp p0 (by simp)) (hp p1 (by simp)) hx ha hb) d0 d1 (hd d0 (by simp)) (hd d1 (by simp))
    exact Both.ok e q
  · exact Both.error _

private theorem column_same {β : Type} {f : List β → Except Err β} (hf : ∀ r o, f r = .ok o → o ∈ r) {P : β → Prop} {d : List (List β)}
    (hd : ∀ row ∈ d, ∀ x ∈ row, P x) : Both (d.mapM f) (d.mapM f) (fun o => ∀ x ∈ o, P x) :=
  Both.mapM d (fun r hr => Both.of (fun o ho => hd r hr o (hf r o ho)))

private theorem two_rows {P : α → Prop} {a b : List α} (ha : ∀ x ∈ a, P x) (hb : ∀ x ∈ b, P x) : AllM P [a, b] := by
  intro row hrow
  simp only [List.mem_cons, List.not_mem_nil, or_false] at hrow
  rcases hrow with rfl | rfl
  · exact ha
  · exact hb

private theorem zip_cons {P : α → Prop} : ∀ (l : List α) (d : Mat α), (∀ x ∈ l, P x) → AllM P d → AllM P (List.zipWith (fun f r => f :: r) l d)
  | [], _, _, _ => by simp [AllM]
  | _ :: _, [], _, _ => by simp [AllM]
  | a :: l, r :: d, hl, hd => by
    intro row hrow
    simp only [List.zipWith_cons_cons, List.mem_cons] at hrow
    rcases hrow with rfl | hrow
    · intro x hx
      rcases List.mem_cons.1 hx with rfl | hx
      · exact hl _ (by simp)
      · exact hd r (by simp) x hx
    · exact zip_cons l d (fun x hx => hl x (by simp [hx])) (fun r' hr' => hd r' (by simp [hr'])) row hrow

private theorem zip_snoc {P : α → Prop} : ∀ (d : Mat α) (l : List α), AllM P d → (∀ x ∈ l, P x) → AllM P (List.zipWith (fun r l => r ++ [l]) d l)
  | [], _, _, _ => by simp [AllM]
  | _ :: _, [], _, _ => by simp [AllM]
  | r :: d, a :: l, hd, hl => by
    intro row hrow
    simp only [List.zipWith_cons_cons, List.mem_cons] at hrow
    rcases hrow with rfl | hrow
    · intro x hx
      rcases List.mem_append.1 hx with hx | hx
      · exact hd r (by simp) x hx
      · rw [List.mem_singleton.1 hx]
        exact hl _ (by simp)
    · exact zip_snoc d l (fun r' hr' => hd r' (by simp [hr'])) (fun x hx => hl x (by simp [hx])) row hrow

/-- the positions of an interpolator satisfy `pos`, its data `sz k` -/
structure Fit (pos : α → Prop) (P : α → Prop) (st : Interp α) : Prop where
  row : ∀ x ∈ st.rowIdx, pos x
  col : ∀ x ∈ st.colIdx, pos x
  hrow : ∀ x ∈ st.hrowIdx, pos x
  hcol : ∀ x ∈ st.hcolIdx, pos x
  data : ∀ d ∈ st.tieData, AllM P d

theorem extrapolateCols_same (h : Agree A B pos sz K N) {k : Nat} (hk : k < K) {st : Interp α} {d : Mat α} (hc : ∀ x ∈ st.colIdx, pos x)
    (hh : ∀ x ∈ st.hcolIdx, pos x) (hd : AllM (sz k) d) (first last : Bool) :
    Both (@extrapolateCols α A st d first last) (@extrapolateCols α B st d first last) (AllM (sz (k + 1))) := by
  have hd' : AllM (sz (k + 1)) d := fun row hrow x hx => h.mono k x (hd row hrow x hx)
  unfold extrapolateCols
  refine Both.bind (Q := fun o => ∀ y ∈ o, sz (k + 1) y) ?_ fun fc hfc => Both.bind (Q := fun o => ∀ y ∈ o, sz (k + 1) y) ?_ fun lc hlc => ?_
  · split
    · refine Both.bind (column_same (fun r => idx_mem) hd) fun c0 h0 => Both.bind (column_same (fun r => idx_mem) hd) fun c1 h1 =>
        Both.bind (Both.of (fun o ho => hh o (idx_mem o ho))) fun x hx => ?_
      exact linearExtrapolate_same h hk (fun p hp => hc p (List.mem_of_mem_take hp)) (two_rows h0 h1) hx
    · exact Both.ok rfl (by simp)
  · split
    · refine Both.bind (column_same (fun r => idxEnd_mem) hd) fun c0 h0 => Both.bind (column_same (fun r => idxEnd_mem) hd) fun c1 h1 =>
        Both.bind (Both.of (fun o ho => hh o (idxEnd_mem o ho))) fun x hx => ?_
      exact linearExtrapolate_same h hk (fun p hp => hc p (List.mem_of_mem_drop hp)) (two_rows h0 h1) hx
    · exact Both.ok rfl (by simp)
  · split
    · exact Both.ok rfl (zip_cons _ _ hfc (zip_snoc _ _ hd' hlc))
    · split
      · exact Both.ok rfl (zip_cons _ _ hfc hd')
      · split
        · exact Both.ok rfl (zip_snoc _ _ hd' hlc)
        · exact Both.ok rfl hd'

theorem fillCols_same (h : Agree A B pos sz K N) {k : Nat} (hk : k < K) {st : Interp α} (hs : Fit pos (sz k) st) :
    Both (@fillCols α A st) (@fillCols α B st) (fun o => Fit pos (sz (k + 1)) o ∧ o.hrowIdx = st.hrowIdx ∧ o.chunk = st.chunk ∧ o.rowIdx = st.rowIdx) := by
  unfold fillCols
  refine Both.bind (Both.of (fun o ho => hs.col o (idx_mem o ho))) fun c0 q0 => Both.bind (Both.of (fun o ho => hs.hcol o (idx_mem o ho))) fun h0 r0 =>
    Both.bind (Both.of (fun o ho => hs.col o (idxEnd_mem o ho))) fun c1 q1 => Both.bind (Both.of (fun o ho => hs.hcol o (idxEnd_mem o ho))) fun h1 r1 => ?_
  rw [h.eq]
  refine Both.bind (Both.mapM _ (fun d hd => extrapolateCols_same h hk hs.col hs.hcol (hs.data d hd) _ _)) fun data hdata => ?_
  refine Both.ok rfl ⟨⟨hs.row, ?_, hs.hrow, hs.hcol, hdata⟩, rfl, rfl, rfl⟩
  have hcol := hs.col
  intro x hx
  simp only at hx
  split at hx
  · simp only [List.cons_append, List.nil_append, List.mem_cons, List.mem_append, List.not_mem_nil, or_false] at hx
    rcases hx with rfl | hx | rfl
    · exact r0
    · exact hcol x hx
    · exact r1
  · split at hx
    · simp only [List.cons_append, List.nil_append, List.mem_cons] at hx
      rcases hx with rfl | hx
      · exact r0
      · exact hcol x hx
    · split at hx
      · simp only [List.mem_append, List.mem_singleton] at hx
        rcases hx with hx | rfl
        · exact hcol x hx
        · exact r1
      · exact hcol x hx

theorem extrapolateRows_same (h : Agree A B pos sz K N) {k : Nat} (hk : k < K) {d : Mat α} {ps : List α} {a b : α} (hp : ∀ p ∈ ps, pos p)
    (ha : pos a) (hb : pos b) (hd : AllM (sz k) d) :
    Both (@extrapolateRows α A d ps a b) (@extrapolateRows α B d ps a b) (AllM (sz (k + 1))) := by
  unfold extrapolateRows
  refine Both.bind (Both.of (fun o ho => hd o (idx_mem o ho))) fun d0 h0 => Both.bind (Both.of (fun o ho => hd o (idx_mem o ho))) fun d1 h1 =>
    Both.bind (linearExtrapolate_same h hk (fun p hp' => hp p (List.mem_of_mem_take hp')) (two_rows h0 h1) ha) fun f hf =>
    Both.bind (Both.of (fun o ho => hd o (idxEnd_mem o ho))) fun e0 g0 => Both.bind (Both.of (fun o ho => hd o (idxEnd_mem o ho))) fun e1 g1 =>
    Both.bind (linearExtrapolate_same h hk (fun p hp' => hp p (List.mem_of_mem_drop hp')) (two_rows g0 g1) hb) fun l hl => ?_
  refine Both.ok rfl ?_
  intro row hrow
  simp only [List.cons_append, List.nil_append, List.mem_cons, List.mem_append, List.not_mem_nil, or_false] at hrow
  rcases hrow with rfl | hrow | rfl
  · exact hf
  · exact fun x hx => h.mono k x (hd row hrow x hx)
  · exact hl

theorem rowChunk_same (h : Agree A B pos sz K N) {k : Nat} (hk : k < K) {st : Interp α} (hs : Fit pos (sz k) st) {chunk index l : Nat}
    (hl : 0 < l) (hr : 0 < st.rowIdx.length) (hn : index + chunk ≤ 2 * N) (hl' : l ≤ N) (hr' : st.rowIdx.length ≤ N) :
    Both (@rowChunk α A st chunk (A.div (A.ofInt l) (A.ofInt st.rowIdx.length)) index) (@rowChunk α B st chunk (B.div (B.ofInt l) (B.ofInt st.rowIdx.length)) index)
      (fun o => (∀ d ∈ o.1, AllM (sz (k + 1)) d) ∧ ∀ x ∈ o.2, pos x) := by
  rw [h.ratio l _ hl hr hl' hr']
  unfold rowChunk
  have e1 := h.quot index l _ hl hr (by omega) hl' hr'
  have e2 := h.quot (index + chunk) l _ hl hr hn hl' hr'
  have et : @tiesIn α A st.rowIdx (A.div (A.ofInt (index : Nat)) (B.div (B.ofInt l) (B.ofInt st.rowIdx.length)))
        (A.div (A.ofInt (index + chunk : Nat)) (B.div (B.ofInt l) (B.ofInt st.rowIdx.length))) =
      @tiesIn α B st.rowIdx (B.div (B.ofInt (index : Nat)) (B.div (B.ofInt l) (B.ofInt st.rowIdx.length)))
        (B.div (B.ofInt (index + chunk : Nat)) (B.div (B.ofInt l) (B.ofInt st.rowIdx.length))) := by
    rw [e1, e2]
    unfold tiesIn
    rw [h.le, h.lt]
  have hties : ∀ t ∈ @tiesIn α B st.rowIdx (B.div (B.ofInt (index : Nat)) (B.div (B.ofInt l) (B.ofInt st.rowIdx.length)))
        (B.div (B.ofInt (index + chunk : Nat)) (B.div (B.ofInt l) (B.ofInt st.rowIdx.length))), pos t.2 := by
    intro t ht
    unfold tiesIn at ht
    exact hs.row _ (List.of_mem_zip (List.mem_of_mem_filter ht)).2
  have key : ∀ tA tB : List (Nat × α), tA = tB → (∀ t ∈ tB, pos t.2) → Both (do
      let datas ← st.tieData.mapM (fun data => @chunkData α A data tA st.hrowIdx index chunk)
      let h0 ← idx st.hrowIdx index
      let h1 ← idx st.hrowIdx (index + chunk - 1)
      Except.ok (datas, [h0] ++ tA.map (·.2) ++ [h1])) (do
      let datas ← st.tieData.mapM (fun data => @chunkData α B data tB st.hrowIdx index chunk)
      let h0 ← idx st.hrowIdx index
      let h1 ← idx st.hrowIdx (index + chunk - 1)
      Except.ok (datas, [h0] ++ tB.map (·.2) ++ [h1])) (fun o => (∀ d ∈ o.1, AllM (sz (k + 1)) d) ∧ ∀ x ∈ o.2, pos x) := ?key
  exact key _ _ et hties
  clear et hties e1 e2
  intro ties tB eB hties
  subst eB
  refine Both.bind (Both.mapM (P := AllM (sz (k + 1))) _ (fun d hd => ?_)) fun datas hdatas => Both.bind (Both.of (fun o ho => hs.hrow o (idx_mem o ho))) fun h0 r0 =>
    Both.bind (Both.of (fun o ho => hs.hrow o (idx_mem o ho))) fun h1 r1 => Both.ok rfl ⟨hdatas, ?_⟩
  · unfold chunkData
    refine Both.bind (Both.mapM (P := fun row => ∀ x ∈ row, sz k x) _ (fun t _ => Both.of (fun o ho => hs.data d hd o (idx_mem o ho)))) fun rows hrows => ?_
    split
    · exact Both.error _
    · split
      · refine Both.bind (Both.of (fun o ho => hs.hrow o (idx_mem o ho))) fun h0 r0 => Both.bind (Both.of (fun o ho => hs.hrow o (idx_mem o ho))) fun h1 r1 => ?_
        refine extrapolateRows_same h hk ?_ r0 r1 hrows
        intro p hp
        obtain ⟨t, ht, rfl⟩ := List.mem_map.1 hp
        exact hties t ht
      · exact Both.ok rfl (by simp [AllM])
  · intro x hx
    simp only [List.cons_append, List.nil_append, List.mem_cons, List.mem_append, List.not_mem_nil, or_false] at hx
    rcases hx with rfl | hx | rfl
    · exact r0
    · obtain ⟨t, ht, rfl⟩ := List.mem_map.1 hx
      exact hties t ht
    · exact r1

theorem rangeStep_lt {lines step i : Nat} (hs : 0 < step) (h : i ∈ rangeStep lines step) : i < lines := by
  obtain ⟨j, hj, rfl⟩ := List.mem_map.1 h
  have h1 : j + 1 ≤ (lines + step - 1) / step := List.mem_range.1 hj
  rw [Nat.le_div_iff_mul_le hs, Nat.add_mul] at h1
  omega

theorem fillRows_same (h : Agree A B pos sz K N) {k : Nat} (hk : k < K) {st : Interp α} (hs : Fit pos (sz k) st) (hr : st.rowIdx.length ≤ N)
    (hl : st.hrowIdx.length ≤ N) (hc : st.chunk ≤ N) :
    Both (@fillRows α A st) (@fillRows α B st) (fun o => Fit pos (sz (k + 1)) o ∧ o.hrowIdx = st.hrowIdx ∧ o.chunk = st.chunk) := by
  have hc2 : (if st.chunk = 0 then st.hrowIdx.length else st.chunk) ≤ N := by split <;> assumption
  unfold fillRows
  simp only
  generalize (if st.chunk = 0 then st.hrowIdx.length else st.chunk) = chunk at hc2 ⊢
  split
  · exact Both.error _
  · rename_i hr0
    split
    · exact Both.error _
    · rename_i hc0
      refine Both.bind (Q := fun ps => ∀ p ∈ ps, (∀ d ∈ p.1, AllM (sz (k + 1)) d) ∧ ∀ x ∈ p.2, pos x) (Both.mapM _ (fun i hi => ?_)) fun parts hparts => ?_
      · have hi := rangeStep_lt (Nat.pos_of_ne_zero hc0) hi
        exact rowChunk_same h hk hs (by omega) (by omega) (by omega) hl hr
      · refine Both.bind (Q := fun ds => ∀ d ∈ ds, AllM (sz (k + 1)) d) (Both.mapM _ (fun num _ => Both.of (fun o ho => ?_))) fun data hdata => ?_
        · unfold stackPart at ho
          simp only at ho
          split at ho
          · cases ho
          · cases ho
            intro row hrow
            obtain ⟨m, hm, hrow⟩ := List.mem_flatten.1 hrow
            obtain ⟨p, hp, rfl⟩ := List.mem_map.1 hm
            rw [List.getD_eq_getElem?_getD] at hrow
            cases e : p.1[num]? with
            | none => rw [e] at hrow; simp at hrow
            | some d =>
              rw [e] at hrow
              exact (hparts p hp).1 d (List.mem_of_getElem? e) row hrow
        · split
          · exact Both.error _
          · refine Both.ok rfl ⟨⟨?_, hs.col, hs.hrow, hs.hcol, hdata⟩, rfl, rfl⟩
            intro x hx
            obtain ⟨l, hl, hx⟩ := List.mem_flatten.1 hx
            obtain ⟨p, hp, rfl⟩ := List.mem_map.1 hl
            exact (hparts p hp).2 x hx

/-- the function for a dimension -/
def fillOne (A : Arith α) (a : String) : Interp α → Except Err (Interp α) := if a = "y" then @fillRows α A else @fillCols α A

private theorem cases_ok (A : Arith α) : ∀ args : List String,
    ((∀ a ∈ args, a = "x" ∨ a = "y") ∧ args.mapM (@fillCase α A) = .ok (args.map (fillOne A))) ∨
    args.mapM (@fillCase α A) = .error .nameError
  | [] => Or.inl ⟨by simp, rfl⟩
  | a :: args => by
    rw [List.mapM_cons]
    by_cases hy : a = "y"
    · rcases cases_ok A args with ⟨h1, h2⟩ | h2
      · refine Or.inl ⟨?_, ?_⟩
        · intro b hb
          rcases List.mem_cons.1 hb with rfl | hb
          · exact Or.inr hy
          · exact h1 b hb
        · rw [h2]
          subst hy
          rfl
      · right
        rw [h2]
        subst hy
        rfl
    · by_cases hx : a = "x"
      · rcases cases_ok A args with ⟨h1, h2⟩ | h2
        · refine Or.inl ⟨?_, ?_⟩
          · intro b hb
            rcases List.mem_cons.1 hb with rfl | hb
            · exact Or.inl hx
            · exact h1 b hb
          · rw [h2]
            subst hx
            rfl
        · right
          rw [h2]
          subst hx
          rfl
      · right
        unfold fillCase
        rw [if_neg hy, if_neg hx]
        rfl

private theorem cases_error (A B : Arith α) (args : List String) (h : args.mapM (@fillCase α B) = .error .nameError) :
    args.mapM (@fillCase α A) = .error .nameError := by
  rcases cases_ok A args with ⟨h1, -⟩ | h2
  · exfalso
    have : args.mapM (@fillCase α B) = .ok (args.map (fillOne B)) := by
      clear h
      induction args with
      | nil => rfl
      | cons a args ih =>
        rw [List.mapM_cons, ih (fun b hb => h1 b (by simp [hb]))]
        rcases h1 a (by simp) with rfl | rfl <;> rfl
    rw [this] at h
    cases h
  · exact h2

theorem runFills_same (h : Agree A B pos sz K N) : ∀ (args : List String) (k : Nat) (st : Interp α), args.Nodup → (∀ a ∈ args, a = "x" ∨ a = "y") →
    k + args.length ≤ K → Fit pos (sz k) st → ("y" ∈ args → st.rowIdx.length ≤ N) → st.hrowIdx.length ≤ N → st.chunk ≤ N →
    runFills (args.map (fillOne A)) st = runFills (args.map (fillOne B)) st
  | [], _, _, _, _, _, _, _, _, _ => rfl
  | a :: args, k, st, hnd, hxy, hk, hs, hr, hl, hc => by
    simp only [List.length_cons] at hk
    rw [List.nodup_cons] at hnd
    simp only [List.map_cons, runFills]
    by_cases hy : a = "y"
    · obtain ⟨e, q⟩ := fillRows_same h (by omega : k < K) hs (hr (by simp [hy])) hl hc
      have e1 : fillOne A a = @fillRows α A := if_pos hy
      have e2 : fillOne B a = @fillRows α B := if_pos hy
      rw [e1, e2, e]
      cases ho : @fillRows α B st with
      | error e => rfl
      | ok o =>
        obtain ⟨q1, q2, q3⟩ := q o ho
        exact runFills_same h args (k + 1) o hnd.2 (fun b hb => hxy b (by simp [hb])) (by omega) q1
          (fun hm => absurd (hy ▸ hm) hnd.1) (by rw [q2]; exact hl) (by rw [q3]; exact hc)
    · obtain ⟨e, q⟩ := fillCols_same h (by omega : k < K) hs
      have e1 : fillOne A a = @fillCols α A := if_neg hy
      have e2 : fillOne B a = @fillCols α B := if_neg hy
      rw [e1, e2, e]
      cases ho : @fillCols α B st with
      | error e => rfl
      | ok o =>
        obtain ⟨q1, q2, q3, q4⟩ := q o ho
        exact runFills_same h args (k + 1) o hnd.2 (fun b hb => hxy b (by simp [hb])) (by omega) q1
          (fun hm => by rw [q4]; exact hr (by simp [hm])) (by rw [q2]; exact hl) (by rw [q3]; exact hc)

private theorem short : ∀ args : List String, args.Nodup → (∀ a ∈ args, a = "x" ∨ a = "y") → args.length ≤ 2 := by
  intro args hnd hxy
  have : args ⊆ ["x", "y"] := fun a ha => by
    rcases hxy a ha with rfl | rfl <;> simp
  exact (List.subperm_of_subset hnd this).length_le

theorem fillBorders_same (h : Agree A B pos sz 2 N) (args : List String) (hnd : args.Nodup) {st : Interp α} (hs : Fit pos (sz 0) st)
    (hr : st.rowIdx.length ≤ N) (hl : st.hrowIdx.length ≤ N) (hc : st.chunk ≤ N) :
    @fillBorders α A args st = @fillBorders α B args st := by
  unfold fillBorders
  rcases cases_ok B args with ⟨h1, h2⟩ | h2
  · rcases cases_ok A args with ⟨_, h3⟩ | h3
    · rw [h2, h3]
      exact runFills_same h args 0 st hnd h1 (by have := short args hnd h1; omega) hs (fun _ => hr) hl hc
    · have := cases_error B A args h3
      rw [this] at h2
      cases h2
  · rw [h2, cases_error A B args h2]

end Verif.Interpolator
