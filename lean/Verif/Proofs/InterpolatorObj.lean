import Verif.Model.InterpolatorObj
import Verif.Proofs.Interpolator

/-!
# Lemmas on `Interpolator` objects over time
-/

namespace Verif.Interpolator
open Verif
variable {α : Type}

/-- the results before the first failure -/
theorem takeWhile_toBool {β : Type} (l : List (Except Err β)) (h : ∃ x ∈ l, x.toBool = false) :
    ∃ j < l.length, l.takeWhile Except.toBool = l.take j ∧ ∀ i < j, ∃ v, l[i]? = some (.ok v) := by
  induction l with
  | nil => simp at h
  | cons a l ih =>
    cases a with
    | error e => exact ⟨0, by simp, by simp [Except.toBool], by simp⟩
    | ok v =>
      obtain ⟨x, hx, hb⟩ := h
      have hx' : x ∈ l := by
        rcases List.mem_cons.1 hx with rfl | hx
        · simp [Except.toBool] at hb
        · exact hx
      obtain ⟨j, hj, h1, h2⟩ := ih ⟨x, hx', hb⟩
      refine ⟨j + 1, by simpa using hj, by rw [List.takeWhile_cons_of_pos rfl, h1]; rfl, ?_⟩
      intro i hi
      cases i with
      | zero => exact ⟨v, rfl⟩
      | succ i => simpa using h2 i (by omega)

theorem mapM_error_mem {β γ : Type} {f : β → Except Err γ} {l : List β} {e : Err} (h : l.mapM f = .error e) :
    ∃ x ∈ l.map f, x.toBool = false := by
  by_contra hn
  have : ∀ a ∈ l, ∃ v, f a = .ok v := by
    intro a ha
    cases hf : f a with
    | ok v => exact ⟨v, rfl⟩
    | error e' => exact absurd ⟨_, List.mem_map_of_mem ha, by rw [hf]; rfl⟩ hn
  have h2 : ∀ m : List β, (∀ a ∈ m, ∃ v, f a = .ok v) → ∃ r, m.mapM f = .ok r := by
    intro m hm
    induction m with
    | nil => exact ⟨[], rfl⟩
    | cons a m ih =>
      obtain ⟨v, hv⟩ := hm a List.mem_cons_self
      obtain ⟨r, hr⟩ := ih (fun b hb => hm b (List.mem_cons_of_mem _ hb))
      exact ⟨v :: r, by rw [List.mapM_cons, hv, hr]; rfl⟩
  obtain ⟨r, hr⟩ := h2 l this
  rw [hr] at h; cases h

theorem exists_mapM {β γ : Type} {f : β → Except Err γ} {l : List β} :
    (∃ r, l.mapM f = .ok r) ↔ ∀ a ∈ l, ∃ v, f a = .ok v := by
  constructor
  · intro ⟨r, h⟩ a ha
    cases hf : f a with
    | ok v => exact ⟨v, rfl⟩
    | error e =>
      obtain ⟨e', h'⟩ := mapM_error ha ⟨e, hf⟩
      rw [h'] at h; cases h
  · intro h
    induction l with
    | nil => exact ⟨[], rfl⟩
    | cons a l ih =>
      obtain ⟨v, hv⟩ := h a List.mem_cons_self
      obtain ⟨r, hr⟩ := ih (fun b hb => h b (List.mem_cons_of_mem _ hb))
      exact ⟨v :: r, by rw [List.mapM_cons, hv, hr]; rfl⟩

theorem exists_bind {β γ : Type} {x : Except Err β} {f : β → Except Err γ} :
    (∃ v, (x >>= f) = .ok v) ↔ ∃ a, x = .ok a ∧ ∃ v, f a = .ok v := by
  cases x with
  | error e => simp [bind, Except.bind]
  | ok a => simp [bind, Except.bind]

theorem bind_ok {β γ : Type} {x : Except Err β} {f : β → Except Err γ} {v : γ} (h : (x >>= f) = .ok v) :
    ∃ a, x = .ok a ∧ f a = .ok v := by
  cases x with
  | error e => cases h
  | ok a => exact ⟨a, rfl, h⟩

theorem exists_idx {β : Type} {l : List β} {i : Nat} : (∃ v, idx l i = .ok v) ↔ i < l.length := by
  unfold idx
  cases h : l[i]? with
  | none => simpa using h
  | some x => simpa using (List.getElem?_eq_some_iff.1 h).1

theorem exists_idxEnd {β : Type} {l : List β} {k : Nat} (hk : 1 ≤ k) : (∃ v, idxEnd l k = .ok v) ↔ k ≤ l.length := by
  unfold idxEnd
  split
  · rw [exists_idx]; omega
  · simp; omega

theorem exists_linear {β : Type} [Arith β] {pos c0 c1 : List β} {h : β} :
    (∃ v, linearExtrapolate pos [c0, c1] h = .ok v) ↔ pos.length = 2 := by
  match pos with
  | [] => simp [linearExtrapolate]
  | [_] => simp [linearExtrapolate]
  | [_, _] => simp [linearExtrapolate]
  | _ :: _ :: _ :: _ => simp [linearExtrapolate]

variable [Arith α]

/-- the rows left by a failing one-dimensional interpolation -/
theorem leftRows_spec {S : SplLib α} {st : Interp α} (junk : Nat → List α) {d : Mat α} {e : Err} (h : interp1d S st d = .error e) :
    ∃ j < st.hrowIdx.length, (leftRows S st junk d).length = st.hrowIdx.length ∧
      (∀ i < j, ∃ r v, d[i]? = some r ∧ splineRow S st r = .ok v ∧ (leftRows S st junk d)[i]? = some v) ∧
      ∀ i, j ≤ i → i < st.hrowIdx.length → (leftRows S st junk d)[i]? = some (junk i) := by
  obtain ⟨j, hj, h1, h2⟩ := takeWhile_toBool _ (mapM_error_mem h)
  simp only [List.length_map, List.length_range] at hj
  refine ⟨j, hj, by simp [leftRows], fun i hi => ?_, fun i hi hl => ?_⟩
  · obtain ⟨v, hv⟩ := h2 i hi
    have hv' := hv
    rw [List.getElem?_map, List.getElem?_range (by omega)] at hv'
    simp only [Option.map_some, Option.some.injEq] at hv'
    have : ∃ r, d[i]? = some r ∧ splineRow S st r = .ok v := by
      unfold idx at hv'
      cases hr : d[i]? with
      | none => rw [hr] at hv'; cases hv'
      | some r => rw [hr] at hv'; exact ⟨r, rfl, hv'⟩
    obtain ⟨r, hr, hs⟩ := this
    refine ⟨r, v, hr, hs, ?_⟩
    simp only [leftRows]
    rw [List.getElem?_map, List.getElem?_range (by omega), h1, Option.map_some, List.getElem?_take, if_pos hi, hv]
  · simp only [leftRows]
    rw [List.getElem?_map, List.getElem?_range hl, h1, Option.map_some, List.getElem?_take, if_neg (by omega)]

theorem fillCols_length {st st' : Interp α} (h : fillCols st = .ok st') : st'.tieData.length = st.tieData.length := by
  unfold fillCols at h
  simp only [bind, Except.bind] at h
  repeat' split at h
  all_goals cases h
  all_goals exact mapM_length (by assumption)

theorem fillRows_length {st st' : Interp α} (h : fillRows st = .ok st') : st'.tieData.length = st.tieData.length := by
  unfold fillRows at h
  simp only [bind, Except.bind] at h
  repeat' split at h
  all_goals cases h
  all_goals exact (mapM_length (by assumption)).trans List.length_range

theorem fillCase_length {dim : String} {f : Interp α → Except Err (Interp α)} (h : fillCase dim = .ok f) {st st' : Interp α}
    (e : f st = .ok st') : st'.tieData.length = st.tieData.length := by
  unfold fillCase at h
  split at h
  · injection h with h; subst h; exact fillRows_length e
  · split at h
    · injection h with h; subst h; exact fillCols_length e
    · cases h

theorem runFills_length {fs : List (Interp α → Except Err (Interp α))}
    (hf : ∀ f ∈ fs, ∀ st st', f st = .ok st' → st'.tieData.length = st.tieData.length) (st : Interp α) :
    (runFills fs st).2.tieData.length = st.tieData.length := by
  induction fs generalizing st with
  | nil => rfl
  | cons f fs ih =>
    unfold runFills
    cases e : f st with
    | error _ => rfl
    | ok st' =>
      simp only
      rw [ih (fun g hg => hf g (List.mem_cons_of_mem _ hg)), hf f List.mem_cons_self st st' e]

theorem fillBorders_length (args : List String) (st : Interp α) : (fillBorders args st).2.tieData.length = st.tieData.length := by
  unfold fillBorders
  cases h : args.mapM (fillCase (α := α)) with
  | error _ => rfl
  | ok fs =>
    refine runFills_length (fun f hf st st' e => ?_) st
    obtain ⟨d, _, hd⟩ := mapM_forall h f hf
    exact fillCase_length hd e

theorem storeAll_length (f : Mat α → Except Err (Mat α)) (left : Mat α → Mat α → Mat α) (ds olds : List (Mat α)) :
    (storeAll f left ds olds).2.length = olds.length := by
  induction ds generalizing olds with
  | nil => cases olds <;> rfl
  | cons d ds ih =>
    cases olds with
    | nil => rfl
    | cons o olds =>
      unfold storeAll
      cases f d with
      | error _ => rfl
      | ok m => simp [ih]

/-- all arrays computed: the list holds them -/
theorem storeAll_ok {f : Mat α → Except Err (Mat α)} {ds ms : List (Mat α)} (left : Mat α → Mat α → Mat α) (olds : List (Mat α))
    (hl : olds.length = ds.length) (h : ds.mapM f = .ok ms) : storeAll f left ds olds = (.ok (), ms) := by
  induction ds generalizing olds ms with
  | nil =>
    injection h with h; subst h
    cases olds with
    | nil => rfl
    | cons _ _ => simp at hl
  | cons d ds ih =>
    obtain ⟨m, ms', h1, h2, rfl⟩ := mapM_cons_ok h
    cases olds with
    | nil => simp at hl
    | cons o olds =>
      unfold storeAll
      rw [h1]
      simp only
      rw [ih olds (by simpa using hl) h2]

/-- an array failed: those before it are stored, those after it stay -/
theorem storeAll_error {f : Mat α → Except Err (Mat α)} {ds : List (Mat α)} {e : Err} (left : Mat α → Mat α → Mat α)
    (olds : List (Mat α)) (hl : olds.length = ds.length) (h : ds.mapM f = .error e) :
    ∃ k ms d, ds[k]? = some d ∧ f d = .error e ∧ (ds.take k).mapM f = .ok ms ∧
      storeAll f left ds olds = (.error e, ms ++ left d (olds.getD k []) :: olds.drop (k + 1)) := by
  induction ds generalizing olds with
  | nil => cases h
  | cons d ds ih =>
    cases olds with
    | nil => simp at hl
    | cons o olds =>
      rw [List.mapM_cons] at h
      cases hd : f d with
      | error e' =>
        rw [hd] at h
        injection h with h; subst h
        exact ⟨0, [], d, rfl, hd, rfl, by simp [storeAll, hd]⟩
      | ok m =>
        rw [hd] at h
        cases hm : ds.mapM f with
        | ok r => rw [hm] at h; cases h
        | error e' =>
          rw [hm] at h
          injection h with h; subst h
          obtain ⟨k, ms, d', h1, h2, h3, h4⟩ := ih olds (by simpa using hl) hm
          refine ⟨k + 1, m :: ms, d', by simpa using h1, h2, ?_, ?_⟩
          · rw [List.take_succ_cons, List.mapM_cons, hd, h3]; rfl
          · simp [storeAll, hd, h4]

/-! ### what failing fills leave -/

/-- all arrays have `n` rows of `w` elements -/
def SameShape (ds : List (Mat α)) : Prop := ∃ n w, ∀ d ∈ ds, d.length = n ∧ ∀ r ∈ d, r.length = w

theorem linear_length {pos c0 c1 v : List α} {h : α} {n : Nat} (e : linearExtrapolate pos [c0, c1] h = .ok v) (h0 : c0.length = n)
    (h1 : c1.length = n) : v.length = n := by
  unfold linearExtrapolate at e
  split at e
  · rename_i heq
    simp only [List.cons.injEq, and_true] at heq
    obtain ⟨rfl, rfl⟩ := heq
    injection e with e; subst e; simp [h0, h1]
  · cases e

/-- adding columns works or not whatever the values in the array -/
theorem extrapolateCols_congr (st : Interp α) {d d' : Mat α} {n w : Nat} {first last : Bool} (h : d.length = n ∧ ∀ r ∈ d, r.length = w)
    (h' : d'.length = n ∧ ∀ r ∈ d', r.length = w) (e : ∃ m, extrapolateCols st d first last = .ok m) :
    ∃ m, extrapolateCols st d' first last = .ok m := by
  have key : ∀ {d : Mat α}, (d.length = n ∧ ∀ r ∈ d, r.length = w) → ((∃ m, extrapolateCols st d first last = .ok m) ↔
      (first = true → (n = 0 ∨ 1 < w) ∧ 0 < st.hcolIdx.length ∧ (st.colIdx.take 2).length = 2) ∧
      (last = true → (n = 0 ∨ 1 < w) ∧ 0 < st.hcolIdx.length ∧ (lastTwo st.colIdx).length = 2)) := by
    intro d hd
    have cols : ∀ (i : Nat), (∃ r, d.mapM (fun r => idx r i) = .ok r) ↔ (n = 0 ∨ i < w) := by
      intro i
      rw [exists_mapM]
      constructor
      · intro h0
        cases d with
        | nil => exact Or.inl hd.1.symm
        | cons a l =>
          have := (exists_idx.1 (h0 a List.mem_cons_self))
          rw [hd.2 a List.mem_cons_self] at this
          exact Or.inr this
      · intro h0 a ha
        rw [exists_idx, hd.2 a ha]
        rcases h0 with rfl | h0
        · have := List.length_eq_zero_iff.1 hd.1
          subst this; cases ha
        · exact h0
    have colsE : ∀ (k : Nat), 1 ≤ k → ((∃ r, d.mapM (fun r => idxEnd r k) = .ok r) ↔ (n = 0 ∨ k ≤ w)) := by
      intro k hk
      rw [exists_mapM]
      constructor
      · intro h0
        cases d with
        | nil => exact Or.inl hd.1.symm
        | cons a l =>
          have := (exists_idxEnd hk).1 (h0 a List.mem_cons_self)
          rw [hd.2 a List.mem_cons_self] at this
          exact Or.inr this
      · intro h0 a ha
        rw [exists_idxEnd hk, hd.2 a ha]
        rcases h0 with rfl | h0
        · have := List.length_eq_zero_iff.1 hd.1
          subst this; cases ha
        · exact h0
    have A : (∃ v, (do
        let c0 ← d.mapM (fun r => idx r 0)
        let c1 ← d.mapM (fun r => idx r 1)
        let h ← idx st.hcolIdx 0
        linearExtrapolate (st.colIdx.take 2) [c0, c1] h : Except Err (List α)) = .ok v) ↔
        (n = 0 ∨ 1 < w) ∧ 0 < st.hcolIdx.length ∧ (st.colIdx.take 2).length = 2 := by
      simp only [exists_bind, exists_linear, exists_and_right, exists_idx, cols]
      constructor
      · rintro ⟨_, h1, h2, h3⟩; exact ⟨h1, h2, h3⟩
      · rintro ⟨h1, h2, h3⟩; exact ⟨h1.imp id (by omega), h1, h2, h3⟩
    have B : (∃ v, (do
        let c0 ← d.mapM (fun r => idxEnd r 2)
        let c1 ← d.mapM (fun r => idxEnd r 1)
        let h ← idxEnd st.hcolIdx 1
        linearExtrapolate (lastTwo st.colIdx) [c0, c1] h : Except Err (List α)) = .ok v) ↔
        (n = 0 ∨ 1 < w) ∧ 0 < st.hcolIdx.length ∧ (lastTwo st.colIdx).length = 2 := by
      simp only [exists_bind, exists_linear, exists_and_right, exists_idxEnd (le_refl 1), colsE 2 (by omega), colsE 1 le_rfl]
      constructor
      · rintro ⟨h1, _, h2, h3⟩; exact ⟨h1, h2, h3⟩
      · rintro ⟨h1, h2, h3⟩; exact ⟨h1, h1.imp id (by omega), h2, h3⟩
    unfold extrapolateCols
    cases first <;> cases last
    · simp [bind, Except.bind]
    · simp only [Bool.false_eq_true, if_false, if_true, false_imp_iff, true_and, forall_const, Bool.false_and, ← B]
      rw [exists_bind]
      constructor
      · rintro ⟨_, _, h⟩
        obtain ⟨a, ha, _⟩ := exists_bind.1 h
        exact ⟨a, ha⟩
      · rintro ⟨a, ha⟩
        exact ⟨[], rfl, exists_bind.2 ⟨a, ha, _, rfl⟩⟩
    · simp only [Bool.false_eq_true, if_false, if_true, false_imp_iff, and_true, forall_const, Bool.and_false, ← A]
      rw [exists_bind]
      constructor
      · rintro ⟨a, ha, _⟩; exact ⟨a, ha⟩
      · rintro ⟨a, ha⟩
        exact ⟨a, ha, _, rfl⟩
    · simp only [if_true, forall_const, Bool.and_self, ← A, ← B]
      rw [exists_bind]
      constructor
      · rintro ⟨a, ha, h⟩
        obtain ⟨b, hb, _⟩ := exists_bind.1 h
        exact ⟨⟨a, ha⟩, b, hb⟩
      · rintro ⟨⟨a, ha⟩, b, hb⟩
        exact ⟨a, ha, exists_bind.2 ⟨b, hb, _, rfl⟩⟩
  exact (key h').2 ((key h).1 e)

theorem extrapolateCols_shape (st : Interp α) {d m : Mat α} {n w : Nat} {first last : Bool} (h : d.length = n ∧ ∀ r ∈ d, r.length = w)
    (e : extrapolateCols st d first last = .ok m) : m.length = n ∧ ∀ r ∈ m, r.length = w + first.toNat + last.toNat := by
  have zip : ∀ {β γ : Type} (f : β → γ → List α) (l : List β) (l' : List γ) (r : List α), r ∈ List.zipWith f l l' →
      ∃ a ∈ l, ∃ b ∈ l', r = f a b := by
    intro β γ f l l' r hr
    induction l generalizing l' with
    | nil => simp at hr
    | cons a l ih =>
      cases l' with
      | nil => simp at hr
      | cons b l' =>
        rw [List.zipWith_cons_cons, List.mem_cons] at hr
        rcases hr with rfl | hr
        · exact ⟨a, List.mem_cons_self, b, List.mem_cons_self, rfl⟩
        · obtain ⟨a', ha, b', hb, hr⟩ := ih l' hr
          exact ⟨a', List.mem_cons_of_mem _ ha, b', List.mem_cons_of_mem _ hb, hr⟩
  unfold extrapolateCols at e
  have A : ∀ {v}, (do
        let c0 ← d.mapM (fun r => idx r 0)
        let c1 ← d.mapM (fun r => idx r 1)
        let h ← idx st.hcolIdx 0
        linearExtrapolate (st.colIdx.take 2) [c0, c1] h : Except Err (List α)) = .ok v → v.length = n := by
    intro v hv
    simp only [bind, Except.bind] at hv
    repeat' split at hv
    all_goals first | exact absurd hv (by simp) | skip
    rename_i c0 h0 _ c1 h1 _ _ _
    exact linear_length hv ((mapM_length h0).trans h.1) ((mapM_length h1).trans h.1)
  have B : ∀ {v}, (do
        let c0 ← d.mapM (fun r => idxEnd r 2)
        let c1 ← d.mapM (fun r => idxEnd r 1)
        let h ← idxEnd st.hcolIdx 1
        linearExtrapolate (lastTwo st.colIdx) [c0, c1] h : Except Err (List α)) = .ok v → v.length = n := by
    intro v hv
    simp only [bind, Except.bind] at hv
    repeat' split at hv
    all_goals first | exact absurd hv (by simp) | skip
    rename_i c0 h0 _ c1 h1 _ _ _
    exact linear_length hv ((mapM_length h0).trans h.1) ((mapM_length h1).trans h.1)
  cases first <;> cases last
  · simp only [Bool.false_eq_true, if_false, Bool.false_and] at e
    injection e with e
    subst e
    exact ⟨h.1, fun r hr => by simp [h.2 r hr]⟩
  · simp only [Bool.false_eq_true, if_false, if_true, Bool.false_and] at e
    obtain ⟨_, _, e⟩ := bind_ok e
    obtain ⟨v, hv, e⟩ := bind_ok e
    injection e with e
    subst e
    refine ⟨by simp [B hv, h.1], fun r hr => ?_⟩
    obtain ⟨a, ha, b, _, rfl⟩ := zip _ _ _ _ hr
    simp [h.2 a ha]
  · simp only [Bool.false_eq_true, if_false, if_true, Bool.and_false] at e
    obtain ⟨v, hv, e⟩ := bind_ok e
    obtain ⟨_, _, e⟩ := bind_ok e
    injection e with e
    subst e
    refine ⟨by simp [A hv, h.1], fun r hr => ?_⟩
    obtain ⟨a, _, b, hb, rfl⟩ := zip _ _ _ _ hr
    simp [h.2 b hb]
  · simp only [if_true, Bool.and_self] at e
    obtain ⟨v, hv, e⟩ := bind_ok e
    obtain ⟨u, hu, e⟩ := bind_ok e
    injection e with e
    subst e
    refine ⟨by simp [A hv, B hu, h.1], fun r hr => ?_⟩
    obtain ⟨a, _, b, hb, rfl⟩ := zip _ _ _ _ hr
    obtain ⟨a', ha', b', _, rfl⟩ := zip _ _ _ _ hb
    simp [h.2 a' ha']

/-- a fill without the arrays it leaves -/
def left (st : Interp α) : Except Err (Interp α) → Except Err Unit × Interp α
  | .ok s => (.ok (), s)
  | .error e => (.error e, st)

theorem fillColsL_eq {st : Interp α} (h : SameShape st.tieData) : fillColsL st = left st (fillCols st) := by
  obtain ⟨n, w, h⟩ := h
  unfold fillColsL fillCols
  cases idx st.colIdx 0 with
  | error e => rfl
  | ok c0 =>
  cases idx st.hcolIdx 0 with
  | error e => rfl
  | ok h0 =>
  cases idxEnd st.colIdx 1 with
  | error e => rfl
  | ok c1 =>
  cases idxEnd st.hcolIdx 1 with
  | error e => rfl
  | ok h1 =>
  simp only [bind, Except.bind]
  cases hm : st.tieData.mapM (fun d => extrapolateCols st d (!Arith.eq c0 h0) (!Arith.eq c1 h1)) with
  | ok ms => simp only [storeAll_ok _ _ rfl hm]; rfl
  | error e =>
    obtain ⟨k, ms, d, hk, hd, hms, hst⟩ := storeAll_error (fun _ old => old) st.tieData rfl hm
    have hk0 : k = 0 := by
      by_contra hk0
      have hdm := List.mem_of_getElem? hk
      obtain ⟨d0, h0m⟩ : ∃ d0, d0 ∈ st.tieData.take k := by
        obtain ⟨hlt, _⟩ := List.getElem?_eq_some_iff.1 hk
        exact ⟨_, List.getElem_mem (l := st.tieData.take k) (n := 0) (by rw [List.length_take]; omega)⟩
      have hok := exists_mapM.1 ⟨ms, hms⟩ d0 h0m
      obtain ⟨m, hm'⟩ := extrapolateCols_congr st (h d0 (List.mem_of_mem_take h0m)) (h d hdm) hok
      rw [hd] at hm'; cases hm'
    subst hk0
    injection hms with hms
    subst hms
    simp only [hst, left]
    congr 1
    have : (st.tieData.getD 0 [] :: st.tieData.drop 1) = st.tieData := by
      cases ht : st.tieData with
      | nil => rw [ht] at hk; simp at hk
      | cons a l => rfl
    simp only [List.reverse_nil, List.nil_append, Nat.zero_add, this]

theorem fillCols_shape {st st' : Interp α} (h : SameShape st.tieData) (e : fillCols st = .ok st') : SameShape st'.tieData := by
  obtain ⟨n, w, h⟩ := h
  unfold fillCols at e
  obtain ⟨c0, _, e⟩ := bind_ok e
  obtain ⟨h0, _, e⟩ := bind_ok e
  obtain ⟨c1, _, e⟩ := bind_ok e
  obtain ⟨h1, _, e⟩ := bind_ok e
  obtain ⟨ms, hm, e⟩ := bind_ok e
  injection e with e
  subst e
  refine ⟨n, w + (!Arith.eq c0 h0).toNat + (!Arith.eq c1 h1).toNat, fun m hmm => ?_⟩
  obtain ⟨d, hd, hdm⟩ := mapM_forall hm m hmm
  exact extrapolateCols_shape st (h d hd) hdm

theorem storeRows_ok {f : Nat → Except Err (Mat α)} {k : Nat} {olds ms : List (Mat α)}
    (h : (List.range' k olds.length).mapM f = .ok ms) : storeRows f k olds = (.ok (), ms) := by
  induction olds generalizing k ms with
  | nil => injection h with h; subst h; rfl
  | cons o olds ih =>
    rw [List.length_cons, List.range'_succ] at h
    obtain ⟨m, ms', h1, h2, rfl⟩ := mapM_cons_ok h
    unfold storeRows
    rw [h1]
    simp only
    rw [ih h2]

theorem chunkData_rows {d : Mat α} {ties : List (Nat × α)} {hr : List α} {index chunk : Nat} {m : Mat α}
    (h : chunkData d ties hr index chunk = .ok m) : m.length = if ties.length = 0 then 0 else ties.length + 2 := by
  unfold chunkData at h
  obtain ⟨x, hx, h⟩ := bind_ok h
  have hl := mapM_length hx
  split at h
  · cases h
  · split at h
    · obtain ⟨_, _, h⟩ := bind_ok h
      obtain ⟨_, _, h⟩ := bind_ok h
      unfold extrapolateRows at h
      obtain ⟨_, _, h⟩ := bind_ok h
      obtain ⟨_, _, h⟩ := bind_ok h
      obtain ⟨_, _, h⟩ := bind_ok h
      obtain ⟨_, _, h⟩ := bind_ok h
      obtain ⟨_, _, h⟩ := bind_ok h
      obtain ⟨_, _, h⟩ := bind_ok h
      injection h with h
      subst h
      rw [if_neg (by omega)]
      simp [hl]
    · injection h with h
      subst h
      rw [if_pos (by omega)]; rfl

theorem chunkData_widths {d : Mat α} {ties : List (Nat × α)} {hr : List α} {index chunk : Nat} {m : Mat α} {w : Nat}
    (hw : ∀ r ∈ d, r.length = w) (h : chunkData d ties hr index chunk = .ok m) : ∀ r ∈ m, r.length = w := by
  have hidx : ∀ {l : Mat α} {i : Nat} {v : List α}, (∀ r ∈ l, r.length = w) → idx l i = .ok v → v.length = w := by
    intro l i v hl h
    unfold idx at h
    split at h
    · injection h with h; subst h; exact hl _ (List.mem_of_getElem? (by assumption))
    · cases h
  have hidxE : ∀ {l : Mat α} {i : Nat} {v : List α}, (∀ r ∈ l, r.length = w) → idxEnd l i = .ok v → v.length = w := by
    intro l i v hl h
    unfold idxEnd at h
    split at h
    · exact hidx hl h
    · cases h
  unfold chunkData at h
  obtain ⟨x, hx, h⟩ := bind_ok h
  have hxw : ∀ r ∈ x, r.length = w := by
    intro r hr
    obtain ⟨t, _, ht⟩ := mapM_forall hx r hr
    exact hidx hw ht
  split at h
  · cases h
  · split at h
    · obtain ⟨_, _, h⟩ := bind_ok h
      obtain ⟨_, _, h⟩ := bind_ok h
      unfold extrapolateRows at h
      obtain ⟨d0, h0, h⟩ := bind_ok h
      obtain ⟨d1, h1, h⟩ := bind_ok h
      obtain ⟨u, hu, h⟩ := bind_ok h
      obtain ⟨e0, g0, h⟩ := bind_ok h
      obtain ⟨e1, g1, h⟩ := bind_ok h
      obtain ⟨v, hv, h⟩ := bind_ok h
      injection h with h
      subst h
      intro r hr
      simp only [List.cons_append, List.nil_append, List.mem_cons, List.mem_append, List.not_mem_nil, or_false] at hr
      rcases hr with rfl | hr | rfl
      · exact linear_length hu (hidx hxw h0) (hidx hxw h1)
      · exact hxw r hr
      · exact linear_length hv (hidxE hxw g0) (hidxE hxw g1)
    · injection h with h
      subst h
      simp

/-- the rows added for each array in one chunk -/
theorem rowChunk_rows {st : Interp α} {chunk : Nat} {factor : α} {index : Nat} {p : List (Mat α) × List α}
    (h : rowChunk st chunk factor index = .ok p) : ∃ n, ∀ num < st.tieData.length, (p.1.getD num []).length = n ∧
      ∀ w, (∀ d ∈ st.tieData, ∀ r ∈ d, r.length = w) → ∀ r ∈ p.1.getD num [], r.length = w := by
  unfold rowChunk at h
  simp only at h
  obtain ⟨datas, hd, h⟩ := bind_ok h
  obtain ⟨_, _, h⟩ := bind_ok h
  obtain ⟨_, _, h⟩ := bind_ok h
  injection h with h
  subst h
  generalize tiesIn st.rowIdx (Arith.ofInt index / factor) (Arith.ofInt (index + chunk : Nat) / factor) = ties at hd
  refine ⟨if ties.length = 0 then 0 else ties.length + 2, fun num hn => ?_⟩
  have hl := mapM_length hd
  have hm : datas.getD num [] ∈ datas := by
    rw [List.getD_eq_getElem?_getD, List.getElem?_eq_getElem (by omega)]
    exact List.getElem_mem _
  obtain ⟨d, hdm, hc⟩ := mapM_forall hd _ hm
  exact ⟨chunkData_rows hc, fun w hw => chunkData_widths (hw d hdm) hc⟩

/-- stacking works for every array or for none -/
theorem stackPart_congr {st : Interp α} {chunk : Nat} {factor : α} {idxs : List Nat} {parts : List (List (Mat α) × List α)}
    (h : idxs.mapM (rowChunk st chunk factor) = .ok parts) {i j : Nat} (hi : i < st.tieData.length) (hj : j < st.tieData.length) :
    ((parts.map (fun p => p.1.getD i [])).flatten).length = ((parts.map (fun p => p.1.getD j [])).flatten).length := by
  rw [List.length_flatten, List.length_flatten, List.map_map, List.map_map]
  congr 1
  apply List.map_congr_left
  intro p hp
  obtain ⟨_, _, hc⟩ := mapM_forall h p hp
  obtain ⟨n, hn⟩ := rowChunk_rows hc
  exact (hn i hi).1.trans (hn j hj).1.symm

theorem fillRowsL_eq (st : Interp α) : fillRowsL st = left st (fillRows st) := by
  unfold fillRowsL fillRows
  simp only
  generalize hc : (if st.chunk = 0 then st.hrowIdx.length else st.chunk) = chunk
  split
  · rfl
  · split
    · rfl
    · simp only [bind, Except.bind]
      cases hp : (rangeStep st.hrowIdx.length chunk).mapM
          (rowChunk st chunk (Arith.ofInt st.hrowIdx.length / Arith.ofInt st.rowIdx.length)) with
      | error e => rfl
      | ok parts =>
        simp only
        cases hm : (List.range st.tieData.length).mapM (stackPart parts) with
        | ok ms =>
          rw [List.range_eq_range'] at hm
          simp only [storeRows_ok hm]
          split
          · rename_i hE
            cases ht : st.tieData with
            | nil =>
              rw [ht] at hm
              injection hm with hm
              subst hm
              simp only [left]
              congr 1
              cases st
              simp only at ht
              simp [ht]
            | cons a l =>
              exfalso
              have hE' : parts = [] := by simpa using hE
              subst hE'
              rw [ht, List.length_cons, List.range'_succ] at hm
              obtain ⟨m, ms', h1, _, _⟩ := mapM_cons_ok hm
              simp [stackPart] at h1
          · rfl
        | error e =>
          have hall : ∀ i < st.tieData.length, stackPart parts i = .error .valueError := by
            obtain ⟨x, hx, hb⟩ := mapM_error_mem hm
            obtain ⟨k, hk, rfl⟩ := List.mem_map.1 hx
            rw [List.mem_range] at hk
            intro i hi
            have hl := stackPart_congr hp hi hk
            unfold stackPart at hb ⊢
            simp only at hb ⊢
            split at hb
            · rename_i h0
              rw [if_pos]
              rw [List.isEmpty_iff_length_eq_zero] at h0 ⊢
              omega
            · cases hb
          cases ht : st.tieData with
          | nil => rw [ht] at hm; cases hm
          | cons a l =>
            have h0 := hall 0 (by rw [ht]; simp)
            have he : e = .valueError := by
              rw [ht, List.length_cons, List.range_eq_range', List.range'_succ, List.mapM_cons, h0] at hm
              injection hm with hm; exact hm.symm
            subst he
            unfold storeRows
            rw [h0]
            simp only [left]
            congr 1
            cases st
            simp only at ht
            rw [ht]

theorem fillRows_shape {st st' : Interp α} (h : SameShape st.tieData) (e : fillRows st = .ok st') : SameShape st'.tieData := by
  obtain ⟨n, w, h⟩ := h
  unfold fillRows at e
  simp only at e
  generalize hc : (if st.chunk = 0 then st.hrowIdx.length else st.chunk) = chunk at e
  split at e
  · cases e
  · split at e
    · cases e
    · obtain ⟨parts, hp, e⟩ := bind_ok e
      obtain ⟨ms, hm, e⟩ := bind_ok e
      split at e
      · cases e
      · injection e with e
        subst e
        refine ⟨((parts.map (fun p => p.1.getD 0 [])).flatten).length, w, fun m hmm => ?_⟩
        obtain ⟨k, hk, hs⟩ := mapM_forall hm m hmm
        rw [List.mem_range] at hk
        unfold stackPart at hs
        simp only at hs
        split at hs
        · cases hs
        · injection hs with hs
          subst hs
          refine ⟨stackPart_congr hp hk (by omega), fun r hr => ?_⟩
          rw [List.mem_flatten] at hr
          obtain ⟨l, hl, hr⟩ := hr
          obtain ⟨p, hpm, rfl⟩ := List.mem_map.1 hl
          obtain ⟨_, _, hc⟩ := mapM_forall hp p hpm
          obtain ⟨_, hn⟩ := rowChunk_rows hc
          exact (hn k hk).2 w (fun d hd => (h d hd).2) r hr

theorem fillColsL_length (st : Interp α) : (fillColsL st).2.tieData.length = st.tieData.length := by
  unfold fillColsL
  split
  · rfl
  · simp only
    split <;> exact storeAll_length _ _ _ _

theorem fillCaseL_eq (dim : String) : (∃ f fL, fillCase (α := α) dim = .ok f ∧ fillCaseL (α := α) dim = .ok fL ∧
      ((f = fillRows ∧ fL = fillRowsL) ∨ (f = fillCols ∧ fL = fillColsL))) ∨
    (fillCase (α := α) dim = .error .nameError ∧ fillCaseL (α := α) dim = .error .nameError) := by
  unfold fillCase fillCaseL
  by_cases h : dim = "y"
  · simp [h]
  · by_cases h' : dim = "x"
    · simp [h']
    · simp [h, h']

/-- the fills as modelled before, for the dimensions of a list -/
theorem fillsL (args : List String) :
    (∃ fs fLs, args.mapM (fillCase (α := α)) = .ok fs ∧ args.mapM (fillCaseL (α := α)) = .ok fLs ∧
      List.Forall₂ (fun f fL => (f = fillRows ∧ fL = fillRowsL) ∨ (f = fillCols ∧ fL = fillColsL)) fs fLs) ∨
    (args.mapM (fillCase (α := α)) = .error .nameError ∧ args.mapM (fillCaseL (α := α)) = .error .nameError) := by
  induction args with
  | nil => exact Or.inl ⟨[], [], rfl, rfl, .nil⟩
  | cons a args ih =>
    rw [List.mapM_cons, List.mapM_cons]
    rcases fillCaseL_eq (α := α) a with ⟨f, fL, h1, h2, h3⟩ | ⟨h1, h2⟩
    · rcases ih with ⟨fs, fLs, h4, h5, h6⟩ | ⟨h4, h5⟩
      · exact Or.inl ⟨f :: fs, fL :: fLs, by rw [h1, h4]; rfl, by rw [h2, h5]; rfl, .cons h3 h6⟩
      · exact Or.inr ⟨by rw [h1, h4]; rfl, by rw [h2, h5]; rfl⟩
    · exact Or.inr ⟨by rw [h1]; rfl, by rw [h2]; rfl⟩

theorem fillColsL_fst (st : Interp α) : (fillColsL st).1 = (left st (fillCols st)).1 ∧
    ((fillColsL st).1 = .ok () → fillColsL st = left st (fillCols st)) := by
  unfold fillColsL fillCols
  cases idx st.colIdx 0 with
  | error e => exact ⟨rfl, fun _ => rfl⟩
  | ok c0 =>
  cases idx st.hcolIdx 0 with
  | error e => exact ⟨rfl, fun _ => rfl⟩
  | ok h0 =>
  cases idxEnd st.colIdx 1 with
  | error e => exact ⟨rfl, fun _ => rfl⟩
  | ok c1 =>
  cases idxEnd st.hcolIdx 1 with
  | error e => exact ⟨rfl, fun _ => rfl⟩
  | ok h1 =>
  simp only [bind, Except.bind]
  cases hm : st.tieData.mapM (fun d => extrapolateCols st d (!Arith.eq c0 h0) (!Arith.eq c1 h1)) with
  | ok ms => simp only [storeAll_ok _ _ rfl hm, left, implies_true, and_self]
  | error e =>
    obtain ⟨k, ms, d, hk, hd, hms, hst⟩ := storeAll_error (fun _ old => old) st.tieData rfl hm
    simp only [hst, left, true_and]
    intro h; cases h

theorem runFillsL_spec {fs : List (Interp α → Except Err (Interp α))} {fLs : List (Interp α → Except Err Unit × Interp α)}
    (h : List.Forall₂ (fun f fL => (f = fillRows ∧ fL = fillRowsL) ∨ (f = fillCols ∧ fL = fillColsL)) fs fLs) (st : Interp α) :
    (runFillsL fLs st).1 = (runFills fs st).1 ∧ ((runFills fs st).1 = .ok () → runFillsL fLs st = runFills fs st) ∧
      (SameShape st.tieData → runFillsL fLs st = runFills fs st) ∧ (runFillsL fLs st).2.tieData.length = st.tieData.length := by
  induction h generalizing st with
  | nil => exact ⟨rfl, fun _ => rfl, fun _ => rfl, rfl⟩
  | @cons f fL fs fLs h hs ih =>
    have hlen : (fL st).2.tieData.length = st.tieData.length := by
      rcases h with ⟨_, rfl⟩ | ⟨_, rfl⟩
      · rw [fillRowsL_eq]
        cases e : fillRows st with
        | ok s => exact fillRows_length e
        | error e => rfl
      · exact fillColsL_length st
    have hfst : (fL st).1 = (left st (f st)).1 ∧ ((fL st).1 = .ok () → fL st = left st (f st)) := by
      rcases h with ⟨rfl, rfl⟩ | ⟨rfl, rfl⟩
      · exact ⟨by rw [fillRowsL_eq], fun _ => fillRowsL_eq st⟩
      · exact fillColsL_fst st
    have hshape : SameShape st.tieData → fL st = left st (f st) ∧ ∀ s, f st = .ok s → SameShape s.tieData := by
      intro hs
      rcases h with ⟨rfl, rfl⟩ | ⟨rfl, rfl⟩
      · exact ⟨fillRowsL_eq st, fun s => fillRows_shape hs⟩
      · exact ⟨fillColsL_eq hs, fun s => fillCols_shape hs⟩
    unfold runFillsL runFills
    cases e : f st with
    | ok s =>
      rw [e] at hfst hshape
      have h1 : fL st = (.ok (), s) := hfst.2 hfst.1
      rw [h1] at hlen
      simp only [h1]
      obtain ⟨i1, i2, i3, i4⟩ := ih s
      exact ⟨i1, i2, fun hs => i3 ((hshape hs).2 s rfl), i4.trans hlen⟩
    | error er =>
      rw [e] at hfst hshape
      cases h1 : fL st with
      | mk a b =>
        rw [h1] at hfst hlen hshape
        have ha : a = .error er := hfst.1
        subst ha
        refine ⟨rfl, fun h => (by cases h), fun hs => ?_, hlen⟩
        exact (hshape hs).1

theorem fillBordersL_spec (args : List String) (st : Interp α) :
    (fillBordersL args st).1 = (fillBorders args st).1 ∧ ((fillBorders args st).1 = .ok () → fillBordersL args st = fillBorders args st) ∧
      (SameShape st.tieData → fillBordersL args st = fillBorders args st) ∧ (fillBordersL args st).2.tieData.length = st.tieData.length := by
  unfold fillBordersL fillBorders
  rcases fillsL (α := α) args with ⟨fs, fLs, h1, h2, h3⟩ | ⟨h1, h2⟩
  · rw [h1, h2]; exact runFillsL_spec h3 st
  · rw [h1, h2]; exact ⟨rfl, fun _ => rfl, fun _ => rfl, rfl⟩

/-- where the loop stops -/
theorem runFills_stop {fs : List (Interp α → Except Err (Interp α))} {st : Interp α} {e : Err} (h : (runFills fs st).1 = .error e) :
    ∃ k < fs.length, runFills (fs.take k) st = (.ok (), (runFills fs st).2) := by
  induction fs generalizing st with
  | nil => cases h
  | cons f fs ih =>
    unfold runFills at h ⊢
    cases hf : f st with
    | error e' => exact ⟨0, by simp, rfl⟩
    | ok s =>
      rw [hf] at h
      simp only at h ⊢
      obtain ⟨k, hk, hr⟩ := ih h
      exact ⟨k + 1, by simpa using hk, by rw [List.take_succ_cons]; simp only [runFills, hf]; exact hr⟩

theorem mapM_take {β γ : Type} {f : β → Except Err γ} {l : List β} {r : List γ} (h : l.mapM f = .ok r) (k : Nat) :
    (l.take k).mapM f = .ok (r.take k) := by
  induction l generalizing r k with
  | nil => injection h with h; subst h; simp; rfl
  | cons a l ih =>
    obtain ⟨m, ms, h1, h2, rfl⟩ := mapM_cons_ok h
    cases k with
    | zero => rfl
    | succ k => rw [List.take_succ_cons, List.mapM_cons, h1, ih h2 k]; rfl

theorem irun_snoc (S : SplLib α) (junk : Nat → List α) (o : IObj α) (ops : List IOp) (p : IOp) :
    irun S junk o (ops ++ [p]) = (istep S junk (irun S junk o ops) p).1 := by
  simp [irun, List.foldl_append]

theorem irun_length (S : SplLib α) (junk : Nat → List α) (st : Interp α) (ops : List IOp) :
    (irun S junk (IObj.init st) ops).newData.length = (irun S junk (IObj.init st) ops).st.tieData.length := by
  suffices h : ∀ o : IObj α, o.newData.length = o.st.tieData.length →
      (irun S junk o ops).newData.length = (irun S junk o ops).st.tieData.length from h _ (by simp [IObj.init])
  induction ops with
  | nil => exact fun o h => h
  | cons p ops ih =>
    intro o h
    refine ih _ ?_
    cases p with
    | fill args => simp only [istep]; rw [(fillBordersL_spec args o.st).2.2.2, h]
    | interpolate =>
      simp only [istep]
      split <;> simp only [storeAll_length, h]

end Verif.Interpolator
