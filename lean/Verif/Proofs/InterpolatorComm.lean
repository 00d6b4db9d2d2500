import Verif.Proofs.Interpolator

/-!
# Filling rows commutes with row-wise transformations that commute with the extrapolation
-/

namespace Verif.Interpolator
open Verif Verif.Spec

variable {α : Type} [Arith α]

/-- a transformation of rows of length `n` that commutes with linear extrapolation -/
def CommutesExtrap (n : Nat) (φ : List α → List α) : Prop :=
  ∀ (p0 p1 x : α) (d0 d1 : List α), d0.length = n → d1.length = n →
    List.zipWith (fun a b => extrap1 p0 p1 a b x) (φ d0) (φ d1)
      = φ (List.zipWith (fun a b => extrap1 p0 p1 a b x) d0 d1)

omit [Arith α] in
theorem idx_map {β γ : Type} (f : β → γ) (l : List β) (i : Nat) : idx (l.map f) i = (idx l i).map f := by
  unfold idx
  rw [List.getElem?_map]
  cases l[i]? <;> rfl

omit [Arith α] in
theorem idxEnd_map {β γ : Type} (f : β → γ) (l : List β) (i : Nat) : idxEnd (l.map f) i = (idxEnd l i).map f := by
  unfold idxEnd
  rw [List.length_map, idx_map]
  split <;> rfl

omit [Arith α] in
theorem idx_mem {β : Type} {l : List β} {i : Nat} {x : β} (h : idx l i = .ok x) : x ∈ l := by
  unfold idx at h
  split at h
  · rename_i y hy
    injection h with h; subst h
    exact List.mem_of_getElem? hy
  · cases h

omit [Arith α] in
theorem idxEnd_mem {β : Type} {l : List β} {i : Nat} {x : β} (h : idxEnd l i = .ok x) : x ∈ l := by
  unfold idxEnd at h
  split at h
  · exact idx_mem h
  · cases h

theorem linearExtrapolate_map {n : Nat} {φ : List α → List α} (hφ : CommutesExtrap n φ) (pos : List α)
    {d0 d1 : List α} (h0 : d0.length = n) (h1 : d1.length = n) (x : α) :
    linearExtrapolate pos [φ d0, φ d1] x = (linearExtrapolate pos [d0, d1] x).map φ := by
  match pos with
  | [p0, p1] => simp only [linearExtrapolate, Except.map]; rw [hφ p0 p1 x d0 d1 h0 h1]
  | [] => rfl
  | [_] => rfl
  | _ :: _ :: _ :: _ => rfl

theorem extrapolateRows_map {n : Nat} {φ : List α → List α} (hφ : CommutesExtrap n φ) {data : Mat α}
    (hd : ∀ r ∈ data, r.length = n) (pos : List α) (h0 h1 : α) :
    extrapolateRows (data.map φ) pos h0 h1 = (extrapolateRows data pos h0 h1).map (List.map φ) := by
  unfold extrapolateRows
  simp only [idx_map, idxEnd_map, bind]
  cases e0 : idx data 0 with
  | error e => rfl
  | ok d0 =>
    cases e1 : idx data 1 with
    | error e => rfl
    | ok d1 =>
      simp only [Except.map, Except.bind]
      rw [linearExtrapolate_map hφ _ (hd _ (idx_mem e0)) (hd _ (idx_mem e1))]
      cases linearExtrapolate (pos.take 2) [d0, d1] h0 with
      | error e => rfl
      | ok f =>
        cases e2 : idxEnd data 2 with
        | error e => rfl
        | ok d2 =>
          cases e3 : idxEnd data 1 with
          | error e => rfl
          | ok d3 =>
            simp only [Except.map]
            rw [linearExtrapolate_map hφ _ (hd _ (idxEnd_mem e2)) (hd _ (idxEnd_mem e3))]
            cases linearExtrapolate (lastTwo pos) [d2, d3] h1 with
            | error e => rfl
            | ok g => simp [Except.map]

theorem chunkData_map {n : Nat} {φ : List α → List α} (hφ : CommutesExtrap n φ) {data : Mat α}
    (hd : ∀ r ∈ data, r.length = n) (ties : List (Nat × α)) (h : List α) (index chunk : Nat) :
    chunkData (data.map φ) ties h index chunk = (chunkData data ties h index chunk).map (List.map φ) := by
  unfold chunkData
  have hm : ties.mapM (fun t => idx (data.map φ) t.1) = (ties.mapM (fun t => idx data t.1)).map (List.map φ) := by
    have := mapM_map_comm (l := ties) (φ := id) (ψ := φ) (f := fun t => idx data t.1)
      (f' := fun t => idx (data.map φ) t.1) (fun a _ => idx_map φ data a.1)
    rwa [List.map_id] at this
  rw [hm]
  cases e : ties.mapM (fun t => idx data t.1) with
  | error e => rfl
  | ok te =>
    simp only [Except.map, bind, Except.bind, List.length_map]
    split
    · rfl
    split
    · cases idx h index with
      | error e => rfl
      | ok h0 =>
        cases idx h (index + chunk - 1) with
        | error e => rfl
        | ok h1 =>
          simp only
          rw [extrapolateRows_map hφ (fun r hr => ?_)]
          · cases extrapolateRows te _ h0 h1 <;> rfl
          · obtain ⟨t, _, ht⟩ := mapM_forall e r hr
            exact hd r (idx_mem ht)
    · rfl

/-- the rows of all data transformed, and new column positions -/
def mapRows (φ : List α → List α) (cols : List α) (st : Interp α) : Interp α :=
  { st with tieData := st.tieData.map (List.map φ), colIdx := cols }

theorem rowChunk_map {n : Nat} {φ : List α → List α} (hφ : CommutesExtrap n φ) {st : Interp α}
    (hd : ∀ d ∈ st.tieData, ∀ r ∈ d, r.length = n) (cols : List α) (chunk : Nat) (factor : α) (index : Nat) :
    rowChunk (mapRows φ cols st) chunk factor index
      = (rowChunk st chunk factor index).map (fun p => (p.1.map (List.map φ), p.2)) := by
  unfold rowChunk
  simp only [mapRows]
  rw [mapM_map_comm (ψ := List.map φ) (f := fun data => chunkData data (tiesIn st.rowIdx (Arith.ofInt index / factor)
    (Arith.ofInt (index + chunk : Nat) / factor)) st.hrowIdx index chunk)
    (fun a ha => chunkData_map hφ (hd a ha) _ _ _ _)]
  cases st.tieData.mapM (fun data => chunkData data (tiesIn st.rowIdx (Arith.ofInt index / factor)
    (Arith.ofInt (index + chunk : Nat) / factor)) st.hrowIdx index chunk) with
  | error e => rfl
  | ok ds =>
    simp only [Except.map, bind, Except.bind]
    cases idx st.hrowIdx index with
    | error e => rfl
    | ok h0 => cases idx st.hrowIdx (index + chunk - 1) <;> rfl

omit [Arith α] in
theorem stackPart_map (φ : List α → List α) (parts : List (List (Mat α) × List α)) (num : Nat) :
    stackPart (parts.map (fun p => (p.1.map (List.map φ), p.2))) num = (stackPart parts num).map (List.map φ) := by
  unfold stackPart
  have : ((parts.map (fun p => (p.1.map (List.map φ), p.2))).map (fun p => p.1.getD num [])).flatten
      = ((parts.map (fun p => p.1.getD num [])).flatten).map φ := by
    rw [List.map_map, List.map_flatten, List.map_map]
    congr 1
    apply List.map_congr_left
    intro p _
    simp only [Function.comp_apply, List.getD_eq_getElem?_getD, List.getElem?_map]
    cases p.1[num]? <;> rfl
  simp only [this]
  rw [List.isEmpty_map]
  split <;> rfl

theorem fillRows_map {n : Nat} {φ : List α → List α} (hφ : CommutesExtrap n φ) {st : Interp α}
    (hd : ∀ d ∈ st.tieData, ∀ r ∈ d, r.length = n) (cols : List α) :
    fillRows (mapRows φ cols st) = (fillRows st).map (mapRows φ cols) := by
  have hrow : (mapRows φ cols st).rowIdx = st.rowIdx := rfl
  have hh : (mapRows φ cols st).hrowIdx = st.hrowIdx := rfl
  have hck : (mapRows φ cols st).chunk = st.chunk := rfl
  have hln : (mapRows φ cols st).tieData.length = st.tieData.length := by simp [mapRows]
  unfold fillRows
  simp only [hrow, hh, hck, hln]
  generalize (if st.chunk = 0 then st.hrowIdx.length else st.chunk) = k
  split
  · rfl
  split
  · rfl
  generalize (Arith.ofInt st.hrowIdx.length / Arith.ofInt st.rowIdx.length : α) = f
  have h1 : (rangeStep st.hrowIdx.length k).mapM (rowChunk (mapRows φ cols st) k f)
      = ((rangeStep st.hrowIdx.length k).mapM (rowChunk st k f)).map
        (List.map (fun p => (p.1.map (List.map φ), p.2))) := by
    have := mapM_map_comm (l := rangeStep st.hrowIdx.length k) (φ := id)
      (ψ := fun p : List (Mat α) × List α => (p.1.map (List.map φ), p.2))
      (f := rowChunk st k f) (f' := rowChunk (mapRows φ cols st) k f) (fun a _ => rowChunk_map hφ hd cols k f a)
    rwa [List.map_id] at this
  rw [h1]
  cases (rangeStep st.hrowIdx.length k).mapM (rowChunk st k f) with
  | error e => rfl
  | ok parts =>
    simp only [Except.map, bind, Except.bind]
    have h2 : (List.range st.tieData.length).mapM (stackPart (parts.map (fun p => (p.1.map (List.map φ), p.2))))
        = ((List.range st.tieData.length).mapM (stackPart parts)).map (List.map (List.map φ)) := by
      have := mapM_map_comm (l := List.range st.tieData.length) (φ := id) (ψ := List.map φ)
        (f := stackPart parts) (f' := stackPart (parts.map (fun p => (p.1.map (List.map φ), p.2))))
        (fun a _ => stackPart_map φ parts a)
      rwa [List.map_id] at this
    rw [h2]
    cases (List.range st.tieData.length).mapM (stackPart parts) with
    | error e => rfl
    | ok ds =>
      simp only [Except.map, List.isEmpty_map]
      split
      · rfl
      · simp [mapRows, List.map_map, Function.comp_def]

/-- the row fill keeps the row lengths -/
theorem fillRows_rowLength {n : Nat} {st st' : Interp α} (hd : ∀ d ∈ st.tieData, ∀ r ∈ d, r.length = n)
    (h : fillRows st = .ok st') : ∀ d ∈ st'.tieData, ∀ r ∈ d, r.length = n := by
  have hlin : ∀ (pos d0 d1 : List α) (x : α) (r : List α), d0.length = n → d1.length = n →
      linearExtrapolate pos [d0, d1] x = .ok r → r.length = n := by
    intro pos d0 d1 x r h0 h1 hr
    match pos with
    | [p0, p1] =>
      simp only [linearExtrapolate] at hr
      injection hr with hr
      rw [← hr, List.length_zipWith, h0, h1, Nat.min_self]
    | [] => cases hr
    | [_] => cases hr
    | _ :: _ :: _ :: _ => cases hr
  have hext : ∀ (data : Mat α) (pos : List α) (h0 h1 : α) (r : Mat α), (∀ r ∈ data, r.length = n) →
      extrapolateRows data pos h0 h1 = .ok r → ∀ x ∈ r, x.length = n := by
    intro data pos h0 h1 r hdata hr
    unfold extrapolateRows at hr
    simp only [bind, Except.bind] at hr
    split at hr
    · cases hr
    rename_i d0 e0
    split at hr
    · cases hr
    rename_i d1 e1
    split at hr
    · cases hr
    rename_i f ef
    split at hr
    · cases hr
    rename_i d2 e2
    split at hr
    · cases hr
    rename_i d3 e3
    split at hr
    · cases hr
    rename_i g eg
    injection hr with hr
    subst hr
    intro x hx
    simp only [List.mem_append, List.mem_singleton] at hx
    rcases hx with (hx | hx) | hx
    · rw [hx]; exact hlin _ _ _ _ _ (hdata _ (idx_mem e0)) (hdata _ (idx_mem e1)) ef
    · exact hdata x hx
    · rw [hx]; exact hlin _ _ _ _ _ (hdata _ (idxEnd_mem e2)) (hdata _ (idxEnd_mem e3)) eg
  have hchunk : ∀ (data : Mat α) (ties : List (Nat × α)) (hh : List α) (i k : Nat) (r : Mat α),
      (∀ r ∈ data, r.length = n) → chunkData data ties hh i k = .ok r → ∀ x ∈ r, x.length = n := by
    intro data ties hh i k r hdata hr
    unfold chunkData at hr
    simp only [bind, Except.bind] at hr
    split at hr
    · cases hr
    rename_i te ete
    split at hr
    · cases hr
    split at hr
    · split at hr
      · cases hr
      split at hr
      · cases hr
      refine hext te _ _ _ r (fun x hx => ?_) hr
      obtain ⟨t, _, ht⟩ := mapM_forall ete x hx
      exact hdata x (idx_mem ht)
    · injection hr with hr
      subst hr
      intro x hx; cases hx
  unfold fillRows at h
  simp only [bind, Except.bind] at h
  generalize (if st.chunk = 0 then st.hrowIdx.length else st.chunk) = k at h
  split at h
  · cases h
  split at h
  · cases h
  split at h
  · cases h
  rename_i parts eparts
  split at h
  · cases h
  rename_i ds eds
  split at h
  · cases h
  injection h with h
  subst h
  intro d hdm r hr
  obtain ⟨num, _, hnum⟩ := mapM_forall eds d hdm
  unfold stackPart at hnum
  dsimp only at hnum
  split at hnum
  · cases hnum
  injection hnum with hnum
  rw [← hnum] at hr
  obtain ⟨l, hl, hrl⟩ := List.mem_flatten.mp hr
  obtain ⟨p, hp, rfl⟩ := List.mem_map.mp hl
  obtain ⟨index, _, hix⟩ := mapM_forall eparts p hp
  unfold rowChunk at hix
  simp only [bind, Except.bind] at hix
  split at hix
  · cases hix
  rename_i datas edatas
  split at hix
  · cases hix
  split at hix
  · cases hix
  injection hix with hix
  rw [← hix] at hrl
  simp only at hrl
  have hmem : datas.getD num [] ∈ datas ∨ datas.getD num [] = [] := by
    by_cases hlt : num < datas.length
    · left; simp [List.getElem?_eq_getElem hlt]
    · right; simp [List.getElem?_eq_none (Nat.le_of_not_lt hlt)]
  rcases hmem with hmem | hmem
  · obtain ⟨data, hdata, hcd⟩ := mapM_forall edatas _ hmem
    exact hchunk data _ _ _ _ _ (hd data hdata) hcd r hrl
  · rw [hmem] at hrl; cases hrl

/-- the row fill changes only the tie data and the row positions -/
theorem fillRows_rest {st st' : Interp α} (h : fillRows st = .ok st') :
    st'.colIdx = st.colIdx ∧ st'.hrowIdx = st.hrowIdx ∧ st'.hcolIdx = st.hcolIdx ∧ st'.chunk = st.chunk ∧
      st'.kx = st.kx ∧ st'.ky = st.ky := by
  unfold fillRows at h
  simp only [bind, Except.bind] at h
  generalize (if st.chunk = 0 then st.hrowIdx.length else st.chunk) = k at h
  split at h
  · cases h
  split at h
  · cases h
  split at h
  · cases h
  split at h
  · cases h
  split at h
  · cases h
  injection h with h
  subst h
  exact ⟨rfl, rfl, rfl, rfl, rfl, rfl⟩

end Verif.Interpolator
