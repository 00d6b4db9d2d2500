import Verif.Model.ModisWrap
import Verif.Proofs.ModisDask

/-!
# Lemmas about the decorator: dask arguments reduce to `lazyInterp`
-/

namespace Verif.ModisWrap
open Verif Verif.Modis Verif.ModisDask
variable {α : Type}

/-- a dask argument -/
abbrev mk (a : DArr α) : Arg α := .arr none (.dask a)
/-- a numpy argument -/
abbrev np (a : Arr2 α) : Arg α := .arr none (.numpy a)

theorem mapM_rechunk (r : Nat) (l : List (DArr α)) :
    (l.map mk).mapM (Arg.rechunk r) = (l.mapM (fun a => DArr.rechunkRows a r)).map (List.map mk) := by
  induction l with
  | nil => rfl
  | cons a l ih =>
    rw [List.map_cons, List.mapM_cons, List.mapM_cons, ih]
    simp only [Arg.rechunk, mk, bind, Except.bind]
    cases a.rechunkRows r with
    | error e => rfl
    | ok b =>
      cases l.mapM (fun a => DArr.rechunkRows a r) <;> rfl

theorem chunks_mk (l : List (DArr α)) :
    (l.map mk).filterMap Arg.chunks? = l.map (fun a => (a.rowChunks, a.colChunks)) := by
  induction l with
  | nil => rfl
  | cons a l ih => rw [List.map_cons, List.map_cons, ← ih]; rfl

theorem rechunkArgs_dask (rps : Nat) (first : DArr α) (rest : List (DArr α)) :
    rechunkArgs rps ((first :: rest).map mk) = (rechunkIfNeeded rps first rest).map (List.map mk) := by
  have hf : ((first :: rest).map mk).find? Arg.hasNdim = some (mk first) := rfl
  have hs : (((first :: rest).map mk).filterMap Arg.chunks?).all (· == (first.rowChunks, first.colChunks))
      = rest.all (fun a => first.rowChunks == a.rowChunks && first.colChunks == a.colChunks) := by
    rw [chunks_mk, List.map_cons, List.all_cons, List.all_map]
    simp only [BEq.rfl, Bool.true_and]
    congr 1
    funext a
    simp only [Function.comp]
    rw [Bool.eq_iff_iff, beq_iff_eq, Bool.and_eq_true, beq_iff_eq, beq_iff_eq, Prod.mk.injEq]
    exact and_congr eq_comm eq_comm
  simp only [rechunkArgs, hf, rechunkIfNeeded, hs]
  split_ifs
  · rfl
  · rfl
  · cases first.rowChunks with
    | nil => rfl
    | cons r0 _ => exact mapM_rechunk _ _

theorem wtasks_dask (func : Nat → List (Arg α) → Except Err (Arr2 α × Arr2 α)) (args : List (DArr α))
    (rs : List (Nat × Nat)) : ∀ k, wtasks func (args.map mk) k rs = tasks (fun k l => func k (l.map np)) args k rs := by
  induction rs with
  | nil => intro k; rfl
  | cons r rs ih =>
    intro k
    obtain ⟨a, b⟩ := r
    simp only [wtasks, tasks, ih]
    congr 2
    rw [List.map_map, List.map_map]
    rfl

theorem wcall_dask (func : Nat → List (Arg α) → Except Err (Arr2 α × Arr2 α)) (coarse fine : Nat) (args : List (DArr α)) :
    wcallMapBlocks func coarse fine (args.map mk) = callMapBlocks (fun k l => func k (l.map np)) coarse fine args := by
  cases args with
  | nil => rfl
  | cons first rest =>
    have hf : ((first :: rest).map mk).find? Arg.hasNdim = some (mk first) := rfl
    simp only [wcallMapBlocks, hf, callMapBlocks, wtasks_dask]

/-- the container of the result -/
def Res.of (dims : Option (String × String)) (l : Lazy α) : Res α :=
  match dims with
  | some d => .dataArrays d l
  | none => .dask l

/-- Dask arguments, plain or in `DataArray`s: the lazy branch. -/
theorem wrapper_dask (func : Nat → List (Arg α) → Except Err (Arr2 α × Arr2 α)) (coarse fine : Nat)
    (d : Option (String × String)) (first : DArr α) (ds : List (Option (String × String))) (rest : List (DArr α))
    (h : ds.length = rest.length) :
    wrapper func (.arr d (.dask first) :: List.zipWith (fun d a => .arr d (.dask a)) ds rest) (some coarse) (some fine)
      = (lazyInterp (fun k l => func k (l.map np)) coarse fine first rest).map (Res.of d) := by
  have he : (Arg.arr d (.dask first) :: List.zipWith (fun d a => Arg.arr d (.dask a)) ds rest).map Arg.extract
      = (first :: rest).map mk := by
    rw [List.map_cons, List.map_cons]
    congr 1
    induction ds generalizing rest with
    | nil => cases rest with
      | nil => rfl
      | cons _ _ => simp at h
    | cons x ds ih => cases rest with
      | nil => simp at h
      | cons a rest =>
        rw [List.zipWith_cons_cons, List.map_cons, List.map_cons, ih rest (by simpa using h)]
        rfl
  have hf : (Arg.arr d (.dask first) :: List.zipWith (fun d a => Arg.arr d (.dask a)) ds rest).find? Arg.hasNdim
      = some (.arr d (.dask first)) := rfl
  simp only [wrapper, hf, he, rechunkArgs_dask, lazyInterp]
  cases d <;> simp only [bind, Except.bind, Except.map] <;> cases rowsPerScan coarse with
  | error e => rfl
  | ok rps =>
    simp only []
    cases rechunkIfNeeded rps first rest with
    | error e => rfl
    | ok args =>
      simp only [wcall_dask]
      cases callMapBlocks (fun k l => func k (l.map np)) coarse fine args <;> rfl

theorem loop_congr {σ : Type} (n : Nat) (f g : Nat → σ → Except Err σ) (s : σ) (h : ∀ i, i < n → ∀ s, f i s = g i s) :
    loop n f s = loop n g s := by
  induction n with
  | zero => rfl
  | succ n ih =>
    simp only [loop, ih (fun i hi => h i (by omega)), h n (by omega)]

theorem rowSlice_rowSlice (a : Arr2 α) {R p q : Nat} (hp : p ≤ R) (hq : q ≤ R) :
    (a.rowSlice 0 R).rowSlice p q = a.rowSlice p q := by
  have h : min q (min R a.rows - min 0 a.rows) - min p (min R a.rows - min 0 a.rows) = min q a.rows - min p a.rows := by
    omega
  simp only [Arr2.rowSlice, Nat.zero_add]
  rw [h]

variable [Trig α]

theorem angleFunc_np (coarse fine width : Nat) (junk : Nat → Nat → Nat → Nat → Nat → α) (k : Nat) (lon lat satz : Arr2 α) :
    angleFunc coarse fine width junk k ([lon, lat, satz].map np) = angleTask coarse fine width junk k [lon, lat, satz] := rfl

/-- only the first rows of the latitudes are read -/
theorem interpolateCfg_lat (cfg : Cfg) (lon lat satz : Arr2 α) (R : Nat) (h : satz.rows ≤ R) (junk) :
    interpolateCfg cfg lon lat satz junk = interpolateCfg cfg lon (lat.rowSlice 0 R) satz junk := by
  unfold interpolateCfg
  split
  · rfl
  · rename_i h0
    have hl : ∀ b, loop (satz.rows / cfg.len) (scanStep cfg lon lat satz (getCoords cfg).1 (getCoords cfg).2) b
        = loop (satz.rows / cfg.len) (scanStep cfg lon (lat.rowSlice 0 R) satz (getCoords cfg).1 (getCoords cfg).2) b := by
      intro b
      refine loop_congr _ _ _ b fun s hs b' => ?_
      have hle : (s + 1) * cfg.len ≤ R := by
        exact (Nat.mul_le_mul_right cfg.len (Nat.succ_le_of_lt hs)).trans ((Nat.div_mul_le_self satz.rows cfg.len).trans h)
      have hle' : s * cfg.len ≤ R := by rw [Nat.add_mul] at hle; omega
      have := rowSlice_rowSlice lat hle' hle
      simp only [scanStep, this]
    simp only [hl]

end Verif.ModisWrap
