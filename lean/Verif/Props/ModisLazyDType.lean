import Verif.Model.ModisLazyDType
import Verif.Props.ModisDType
import Verif.Props.ModisDask

/-!
# C78: the element type a lazy MODIS result declares

Every theorem holds for every arithmetic `α`.
-/

namespace Verif.Props
open Verif Verif.Modis Verif.ModisDask Verif.ModisLazyDType
variable {α : Type}

/-- the lazy arrays without their element types -/
def untyped (l : TLazy α) : Lazy α := ⟨l.rowChunks, l.colChunks, l.blocks.map (Except.map Prod.snd)⟩

/-- the blocks all compute, and to arrays of type `t` -/
def AllOfType (l : TLazy α) (t : DType) : Prop := ∀ b ∈ l.blocks, ∃ out, b = .ok (t, out)

theorem promote_self {t : DType} : promote t t = t := by cases t <;> rfl

/-- the task without the element types -/
def erasedTask (func : Nat → List (NdArr α) → Except Err ((DType × Arr2 α) × (DType × Arr2 α))) (types : List DType)
    (k : Nat) (bs : List (Arr2 α)) : Except Err (Arr2 α × Arr2 α) :=
  (handler (func k) (List.zipWith (fun t x => ⟨t, 2, x⟩) types bs)).map Prod.snd

theorem typedTasks_untyped (func : Nat → List (NdArr α) → Except Err ((DType × Arr2 α) × (DType × Arr2 α)))
    (types : List DType) (args : List (DArr α)) (rs : List (Nat × Nat)) : ∀ k,
    (typedTasks func types args k rs).map (Except.map Prod.snd) = tasks (erasedTask func types) args k rs := by
  induction rs with
  | nil => intro k; rfl
  | cons r rs ih =>
    intro k
    obtain ⟨a, b⟩ := r
    simp only [typedTasks, tasks, List.map_cons, ih, erasedTask, List.zipWith_map_right]

theorem lazyTyped_untyped (func : Nat → List (NdArr α) → Except Err ((DType × Arr2 α) × (DType × Arr2 α))) (coarse fine : Nat)
    (first : DType × DArr α) (rest : List (DType × DArr α)) :
    (lazyTyped func coarse fine first rest).map untyped
      = lazyInterp (erasedTask func (first.1 :: rest.map (·.1))) coarse fine first.2 (rest.map (·.2)) := by
  unfold lazyTyped lazyInterp
  cases rowsPerScan coarse with
  | error e => rfl
  | ok rps =>
    simp only [bind, Except.bind]
    cases rechunkIfNeeded rps first.2 (rest.map (·.2)) with
    | error e => rfl
    | ok args =>
      cases args with
      | nil => rfl
      | cons a as =>
        simp only [callMapBlocks, bind, Except.bind]
        by_cases h : fine = 0
        · simp [h, Except.map]
        · simp only [h, if_false]
          cases finePerKm fine with
          | error e => rfl
          | ok k => simp only [Except.map, untyped, typedTasks_untyped]

theorem mapM_length {β γ : Type} (f : β → Except Err γ) : ∀ (l : List β) (m : List γ), l.mapM f = .ok m → m.length = l.length := by
  intro l
  induction l with
  | nil => intro m h; simp only [List.mapM_nil, pure, Except.pure] at h; injection h with h; rw [← h]; rfl
  | cons a l ih =>
    intro m h
    rw [List.mapM_cons] at h
    simp only [bind, Except.bind, pure, Except.pure] at h
    cases ha : f a with
    | error e => rw [ha] at h; cases h
    | ok b =>
      rw [ha] at h
      cases hl : l.mapM f with
      | error e => simp only [hl] at h; cases h
      | ok bs =>
        simp only [hl] at h
        injection h with h
        rw [← h, List.length_cons, List.length_cons, ih bs hl]

theorem rechunk_length {rps : Nat} {first : DArr α} {rest args : List (DArr α)} (h : rechunkIfNeeded rps first rest = .ok args) :
    args.length = rest.length + 1 := by
  unfold rechunkIfNeeded at h
  split at h
  · cases h
  simp only at h
  split at h
  · injection h with h; rw [← h]; rfl
  · split at h
    · cases h
    · exact mapM_length _ _ _ h

/-- the tasks see lists of as many arrays as there are arguments -/
theorem typed_tasks_congr {f g : Nat → List (Arr2 α) → Except Err (Arr2 α × Arr2 α)} {args : List (DArr α)}
    (h : ∀ k bs, bs.length = args.length → f k bs = g k bs) (rs : List (Nat × Nat)) : ∀ k, tasks f args k rs = tasks g args k rs := by
  induction rs with
  | nil => intro k; rfl
  | cons r rs ih =>
    intro k
    obtain ⟨a, b⟩ := r
    simp only [tasks, ih]
    rw [h k _ (by simp)]

theorem typed_lazyInterp_congr {f g : Nat → List (Arr2 α) → Except Err (Arr2 α × Arr2 α)} {coarse fine : Nat} {first : DArr α}
    {rest : List (DArr α)} (h : ∀ k bs, bs.length = rest.length + 1 → f k bs = g k bs) :
    lazyInterp f coarse fine first rest = lazyInterp g coarse fine first rest := by
  unfold lazyInterp
  cases rowsPerScan coarse with
  | error e => rfl
  | ok rps =>
    simp only [bind, Except.bind]
    cases hr : rechunkIfNeeded rps first rest with
    | error e => rfl
    | ok args =>
      have hl := rechunk_length hr
      cases args with
      | nil => rfl
      | cons a as => simp only [callMapBlocks, typed_tasks_congr (fun k bs e => h k bs (by rw [e, hl]))]

/-- blocks by their tasks: what holds for every result of `func` holds for every block -/
theorem typedTasks_all {func : Nat → List (NdArr α) → Except Err ((DType × Arr2 α) × (DType × Arr2 α))} {types : List DType}
    {args : List (DArr α)} {P : Except Err (DType × Arr2 α × Arr2 α) → Prop}
    (h : ∀ k (bs : List (Arr2 α)), bs.length = args.length → P (handler (func k) (List.zipWith (fun t x => ⟨t, 2, x⟩) types bs)))
    (rs : List (Nat × Nat)) : ∀ k, ∀ b ∈ typedTasks func types args k rs, P b := by
  induction rs with
  | nil => intro k b hb; simp [typedTasks] at hb
  | cons r rs ih =>
    intro k b hb
    obtain ⟨x, y⟩ := r
    simp only [typedTasks, List.mem_cons] at hb
    rcases hb with hb | hb
    · have := h k (args.map (fun a => a.data.rowSlice x y)) (by simp)
      rw [List.zipWith_map_right] at this
      rw [hb]; exact this
    · exact ih _ b hb

theorem lazyTyped_all {func : Nat → List (NdArr α) → Except Err ((DType × Arr2 α) × (DType × Arr2 α))} {coarse fine : Nat}
    {first : DType × DArr α} {rest : List (DType × DArr α)} {P : Except Err (DType × Arr2 α × Arr2 α) → Prop} {l : TLazy α}
    (h : ∀ k (bs : List (Arr2 α)), bs.length = rest.length + 1 →
      P (handler (func k) (List.zipWith (fun t x => ⟨t, 2, x⟩) (first.1 :: rest.map (·.1)) bs)))
    (hl : lazyTyped func coarse fine first rest = .ok l) : l.declared = first.1 ∧ ∀ b ∈ l.blocks, P b := by
  unfold lazyTyped at hl
  cases hc : rowsPerScan coarse with
  | error e => rw [hc] at hl; cases hl
  | ok rps =>
    rw [hc] at hl
    simp only [bind, Except.bind] at hl
    cases hr : rechunkIfNeeded rps first.2 (rest.map (·.2)) with
    | error e => rw [hr] at hl; cases hl
    | ok args =>
      rw [hr] at hl
      have hlen := rechunk_length hr
      rw [List.length_map] at hlen
      cases args with
      | nil => cases hl
      | cons a as =>
        simp only at hl
        by_cases h0 : fine = 0
        · rw [if_pos h0] at hl; cases hl
        · rw [if_neg h0] at hl
          cases hf : finePerKm fine with
          | error e => rw [hf] at hl; cases hl
          | ok k =>
            rw [hf] at hl
            injection hl with hl
            rw [← hl]
            exact ⟨rfl, typedTasks_all (fun k bs e => h k bs (by rw [e, hlen])) _ _⟩

variable [Trig α]

/-- the eager function, where it has a result, reports the type of the longitudes -/
theorem interpolateTyped_type {coarse fine width : Nat} {lon lat satz : NdArr α} {junk} {t : DType} {out : Arr2 α × Arr2 α}
    (h : Modis.interpolateTyped coarse fine width lon lat satz junk = .ok (t, out)) : t = lon.dtype := by
  unfold Modis.interpolateTyped at h
  split at h
  · cases h
  simp only [bind, Except.bind] at h
  split at h
  · cases h
  split at h
  · cases h
  split at h
  · cases h
  split at h
  · cases h
  split at h
  · cases h
  split at h
  · cases h
  split at h
  · cases h
  · injection h with h; injection h with h1 h2; exact h1.symm

theorem simpleTyped_type {mc : ModisSimple.MapCoord α} {coarse fine : Nat} {lon lat : NdArr α} {junk} {t : DType}
    {out : Arr2 α × Arr2 α} (h : ModisSimple.interpolateTyped mc coarse fine lon lat junk = .ok (t, out)) : t = lon.dtype := by
  unfold ModisSimple.interpolateTyped at h
  split at h
  · cases h
  simp only [bind, Except.bind] at h
  split at h
  · cases h
  split at h
  · cases h
  split at h
  · cases h
  · injection h with h; injection h with h1 h2; exact h1.symm

/-- the public conversions on dask arrays with element types -/
def lazyTypedRun (c : Conv) (lon lat satz : DType × DArr α) (junk : Nat → Nat → Nat → Nat → Nat → α) : Except Err (TLazy α) :=
  match c with
  | .km1to500 => ModisLazyDType.lazyAngle 1000 500 lon lat satz junk
  | .km1to250 => ModisLazyDType.lazyAngle 1000 250 lon lat satz junk
  | .km5to1 => ModisLazyDType.lazyAngle 5000 1000 lon lat satz junk
  | .km5to500 => ModisLazyDType.lazyAngle 5000 500 lon lat satz junk
  | .km5to250 => ModisLazyDType.lazyAngle 5000 250 lon lat satz junk

theorem lazyTypedRun_eq (c : Conv) (lon lat satz : DType × DArr α) (junk : Nat → Nat → Nat → Nat → Nat → α) :
    lazyTypedRun c lon lat satz junk
      = lazyTyped (typedAngle c.coarse c.fine (c.widthArg lon.2.data.cols) junk) c.coarse c.fine lon [lat, satz] := by
  cases c <;> rfl

theorem length_three {β : Type} {l : List β} (h : l.length = 3) : ∃ a b c, l = [a, b, c] := by
  match l, h with
  | [a, b, c], _ => exact ⟨a, b, c, rfl⟩

theorem length_two {β : Type} {l : List β} (h : l.length = 2) : ∃ a b, l = [a, b] := by
  match l, h with
  | [a, b], _ => exact ⟨a, b, rfl⟩

/-- **C78 (declared type)**: whatever the element types, sizes, chunks and contents of the arguments, a lazy result declares
the type of the longitudes, and a block that computes has the declared type. -/
theorem C78_declared (c : Conv) (lon lat satz : DType × DArr α) (junk) (l : TLazy α)
    (h : lazyTypedRun c lon lat satz junk = .ok l) :
    l.declared = lon.1 ∧ ∀ t out, .ok (t, out) ∈ l.blocks → t = l.declared := by
  rw [lazyTypedRun_eq] at h
  suffices hs : l.declared = lon.1 ∧ ∀ b ∈ l.blocks, ∀ t out, b = .ok (t, out) → t = lon.1 from
    ⟨hs.1, fun t out hm => by rw [hs.1]; exact hs.2 _ hm t out rfl⟩
  refine lazyTyped_all (P := fun b => ∀ t out, b = .ok (t, out) → t = lon.1) (fun k bs hb t out e => ?_) h
  · obtain ⟨x, y, z, rfl⟩ := length_three hb
    simp only [List.map_cons, List.map_nil, List.zipWith_cons_cons, List.zipWith_nil_right, handler, typedAngle, both, bind,
      Except.bind] at e
    cases hi : Modis.interpolateTyped c.coarse c.fine (c.widthArg lon.2.data.cols) ⟨lon.1, 2, x⟩ ⟨lat.1, 2, y⟩ ⟨satz.1, 2, z⟩ (junk k) with
    | error e' => rw [hi] at e; cases e
    | ok r =>
      obtain ⟨t', o⟩ := r
      rw [hi] at e
      have := interpolateTyped_type hi
      simp only [promote_self] at e
      injection e with e
      injection e with e1 e2
      rw [← e1]; exact this

/-- **C78 (declared type, simple interpolation)** -/
theorem C78_declared_simple (mc : ModisSimple.MapCoord α) (fine : Nat) (lon lat : DType × DArr α) (junk) (l : TLazy α)
    (h : ModisLazyDType.lazySimple mc fine lon lat junk = .ok l) :
    l.declared = lon.1 ∧ ∀ t out, .ok (t, out) ∈ l.blocks → t = l.declared := by
  suffices hs : l.declared = lon.1 ∧ ∀ b ∈ l.blocks, ∀ t out, b = .ok (t, out) → t = lon.1 from
    ⟨hs.1, fun t out hm => by rw [hs.1]; exact hs.2 _ hm t out rfl⟩
  refine lazyTyped_all (P := fun b => ∀ t out, b = .ok (t, out) → t = lon.1) (fun k bs hb t out e => ?_) h
  · obtain ⟨x, y, rfl⟩ := length_two hb
    simp only [List.map_cons, List.map_nil, List.zipWith_cons_cons, List.zipWith_nil_right, handler, typedSimple, both, bind,
      Except.bind] at e
    cases hi : ModisSimple.interpolateTyped mc 1000 fine ⟨lon.1, 2, x⟩ ⟨lat.1, 2, y⟩ (junk k) with
    | error e' => rw [hi] at e; cases e
    | ok r =>
      obtain ⟨t', o⟩ := r
      rw [hi] at e
      have := simpleTyped_type hi
      simp only [promote_self] at e
      injection e with e
      injection e with e1 e2
      rw [← e1]; exact this

/-- float32: the typed eager function is the eager function -/
theorem interpolateTyped_float32 (coarse fine width : Nat) (x y z : Arr2 α) (junk) :
    Modis.interpolateTyped coarse fine width ⟨.float32, 2, x⟩ ⟨.float32, 2, y⟩ ⟨.float32, 2, z⟩ junk
      = (Modis.interpolate coarse fine width x y z junk).map (fun o => (.float32, o)) := by
  unfold Modis.interpolateTyped Modis.interpolate
  simp only [fusedSelect, acquire, coordsDType, bind, Except.bind, and_self, if_true, ne_eq, not_true_eq_false, if_false]
  split
  · rfl
  · cases mkCfg coarse fine width with
    | error e => rfl
    | ok cfg => rfl

/-- float64: nothing gets past the coordinates -/
theorem interpolateTyped_float64 (c : Conv) (w : Nat) (hw : c.WidthOk w) (x y z : Arr2 α) (junk) :
    Modis.interpolateTyped c.coarse c.fine (c.widthArg w) ⟨.float64, 2, x⟩ ⟨.float64, 2, y⟩ ⟨.float64, 2, z⟩ junk
      = .error .valueError := by
  unfold Modis.interpolateTyped
  cases c with
  | km1to500 => simp [fusedSelect, acquire, coordsDType, bind, Except.bind, mkCfg, Conv.coarse, Conv.fine, Conv.widthArg]
  | km1to250 => simp [fusedSelect, acquire, coordsDType, bind, Except.bind, mkCfg, Conv.coarse, Conv.fine, Conv.widthArg]
  | km5to1 =>
    rcases hw with h | h <;>
      simp [fusedSelect, acquire, coordsDType, bind, Except.bind, mkCfg, Conv.coarse, Conv.fine, Conv.widthArg, h]
  | km5to500 =>
    rcases hw with h | h <;>
      simp [fusedSelect, acquire, coordsDType, bind, Except.bind, mkCfg, Conv.coarse, Conv.fine, Conv.widthArg, h]
  | km5to250 =>
    rcases hw with h | h <;>
      simp [fusedSelect, acquire, coordsDType, bind, Except.bind, mkCfg, Conv.coarse, Conv.fine, Conv.widthArg, h]

omit [Trig α] in
/-- a lazy result that computes has no failing block -/
theorem allOfType {l : TLazy α} {t0 : DType} {out : Arr2 α × Arr2 α} (hd : l.declared = t0)
    (ht : ∀ t o, .ok (t, o) ∈ l.blocks → t = l.declared) (h : LazyEq (untyped l) out) : AllOfType l t0 := by
  have key : ∀ (e : Err) (bl : List (Except Err (DType × Arr2 α × Arr2 α))) (bs : List (Arr2 α × Arr2 α)),
      (bl.map (Except.map Prod.snd)).mapM id = .ok bs → (.error e) ∉ bl := by
    intro e bl
    induction bl with
    | nil => intro bs _; simp
    | cons a bl ih =>
      intro bs hm hmem
      rw [List.map_cons, List.mapM_cons] at hm
      cases a with
      | error e' => cases hm
      | ok v =>
        simp only [Except.map, id, bind, Except.bind] at hm
        cases hq : (bl.map (Except.map Prod.snd)).mapM id with
        | error e' => rw [hq] at hm; cases hm
        | ok q =>
          simp only [List.mem_cons, reduceCtorEq, false_or] at hmem
          exact ih q hq hmem
  obtain ⟨bs, hbs, -⟩ := h.2.2.1
  intro b hb
  cases b with
  | error e => exact absurd hb (key e _ bs hbs)
  | ok v =>
    obtain ⟨t, o⟩ := v
    exact ⟨o, by rw [ht t o hb, hd]⟩

/-- **C78 (float32)**: for whole scans in float32 dask arrays (the first row chunk of the longitudes holding at least one
scan) the lazy result declares float32, every block is float32, and the values are those of the eager call. -/
theorem C78_float32 (c : Conv) (n : Nat) (lon lat satz : DArr α) (h : ScanInput c n lon.data lat.data satz.data)
    (hwf : lon.WF) (r0 : Nat) (cs : List Nat) (hr : lon.rowChunks = r0 :: cs) (hr0 : n = 0 ∨ c.scanRows ≤ r0)
    (junk : Nat → Nat → Nat → Nat → α) (junk' : Nat → Nat → Nat → Nat → Nat → α) :
    ∃ out l, c.run lon.data lat.data satz.data junk = .ok out ∧
      lazyTypedRun c (.float32, lon) (.float32, lat) (.float32, satz) junk' = .ok l ∧
      l.declared = .float32 ∧ AllOfType l .float32 ∧ LazyEq (untyped l) out := by
  obtain ⟨out, l0, e1, e2, e3⟩ := C30_lazy_eager c n lon lat satz h hwf r0 cs hr hr0 junk junk'
  have hu : (lazyTypedRun c (.float32, lon) (.float32, lat) (.float32, satz) junk').map untyped = .ok l0 := by
    rw [lazyTypedRun_eq, lazyTyped_untyped, ← e2, c.lazyRun_eq]
    refine typed_lazyInterp_congr (fun k bs hb => ?_)
    obtain ⟨x, y, z, rfl⟩ := length_three hb
    simp only [erasedTask, List.map_cons, List.map_nil, List.zipWith_cons_cons, List.zipWith_nil_right, handler, typedAngle,
      both, bind, Except.bind, interpolateTyped_float32, angleTask]
    cases Modis.interpolate c.coarse c.fine (c.widthArg lon.data.cols) x y z (junk' k) <;> rfl
  cases hl : lazyTypedRun c (.float32, lon) (.float32, lat) (.float32, satz) junk' with
  | error e => rw [hl] at hu; cases hu
  | ok l =>
    rw [hl] at hu
    injection hu with hu
    obtain ⟨hd, ht⟩ := C78_declared c _ _ _ _ l hl
    refine ⟨out, l, e1, rfl, hd, ?_, by rw [hu]; exact e3⟩
    exact allOfType hd ht (by rw [hu]; exact e3)

/-- two scans at 5 km in chunks of 2 rows -/
example (f g h : Nat → Nat → α) (junk junk') :=
  C78_float32 .km5to1 2 ⟨⟨4, 270, f⟩, [2, 2], [270]⟩ ⟨⟨4, 270, g⟩, [4], [270]⟩ ⟨⟨4, 270, h⟩, [1, 3], [70, 200]⟩
    ⟨Or.inl rfl, rfl, rfl, rfl, rfl, rfl⟩ ⟨rfl, rfl⟩ 2 [2] rfl (by simp [Conv.scanRows]) junk junk'

/-- **C78, negation for float64**: for whole scans in float64 dask arrays the call succeeds and declares float64, but every
block raises ValueError when it is computed (compare C63). -/
theorem C78_negation_float64 (c : Conv) (n : Nat) (lon lat satz : DArr α) (h : ScanInput c n lon.data lat.data satz.data)
    (hwf : lon.WF) (r0 : Nat) (cs : List Nat) (hr : lon.rowChunks = r0 :: cs) (hr0 : n = 0 ∨ c.scanRows ≤ r0)
    (junk : Nat → Nat → Nat → Nat → Nat → α) :
    ∃ l, lazyTypedRun c (.float64, lon) (.float64, lat) (.float64, satz) junk = .ok l ∧ l.declared = .float64 ∧
      l.blocks ≠ [] ∧ (∀ b ∈ l.blocks, b = .error .valueError) ∧ ∀ d, (untyped l).compute d = .error .valueError := by
  have hpos : 0 < c.scanRows := by cases c <;> simp [Conv.scanRows]
  obtain ⟨c0, cl, hbd⟩ := blockdims_ok (d := n * c.scanRows) (bd := r0 / c.scanRows * c.scanRows) (by
    rcases hr0 with h0 | h0
    · left; rw [h0, Nat.zero_mul]
    · right
      have : 0 < r0 / c.scanRows := Nat.div_pos h0 hpos
      exact (Nat.mul_pos this hpos).ne')
  have hfr : ∀ a ∈ [lon, lat, satz], a.data.rows = n * c.scanRows := by
    intro a ha
    simp only [List.mem_cons, List.not_mem_nil, or_false] at ha
    rcases ha with rfl | rfl | rfl
    · exact h.lonRows
    · exact h.latRows
    · exact h.satzRows
  have hre : rechunkIfNeeded c.scanRows lon [lat, satz]
      = .ok ([lon, lat, satz].map (fun a => ⟨a.data, c0 :: cl, [a.data.cols]⟩)) := by
    unfold rechunkIfNeeded
    have hmod : ¬ lon.data.rows % c.scanRows ≠ 0 := by rw [h.lonRows]; simp
    rw [if_neg hmod, goodCol_false hwf, hr]
    simp only [Bool.and_false, Bool.false_and]
    exact rechunk_all hbd _ hfr
  have hc : rowsPerScan c.coarse = .ok c.scanRows := by cases c <;> rfl
  obtain ⟨kk, hk⟩ : ∃ kk, finePerKm c.fine = .ok kk := by cases c <;> exact ⟨_, rfl⟩
  have h0 : ¬ c.fine = 0 := by cases c <;> simp [Conv.fine]
  have hl : ∃ l, lazyTypedRun c (.float64, lon) (.float64, lat) (.float64, satz) junk = .ok l ∧ l.blocks ≠ [] := by
    rw [lazyTypedRun_eq]
    refine ⟨_, by simp only [lazyTyped, hc, bind, Except.bind, List.map_cons, List.map_nil, hre, if_neg h0, hk]; rfl, ?_⟩
    simp [blockRanges, typedTasks]
  obtain ⟨l, hl, hne⟩ := hl
  have hl' := hl
  rw [lazyTypedRun_eq] at hl'
  obtain ⟨hd, hall⟩ := lazyTyped_all (P := fun b => b = .error .valueError) (fun k bs hb => by
    obtain ⟨x, y, z, rfl⟩ := length_three hb
    simp only [List.map_cons, List.map_nil, List.zipWith_cons_cons, List.zipWith_nil_right, handler, typedAngle, both, bind,
      Except.bind, interpolateTyped_float64 c _ h.width]) hl'
  refine ⟨l, hl, hd, hne, hall, fun d => ?_⟩
  obtain ⟨b, bs, hb⟩ := List.exists_cons_of_ne_nil hne
  have hb0 : b = .error .valueError := hall b (by rw [hb]; exact List.mem_cons_self)
  simp only [Lazy.compute, untyped, hb, hb0, List.map_cons, List.mapM_cons]
  rfl

example (f g h : Nat → Nat → α) (junk) :=
  C78_negation_float64 .km1to250 2 ⟨⟨20, 1354, f⟩, [10, 10], [1354]⟩ ⟨⟨20, 1354, g⟩, [20], [1354]⟩
    ⟨⟨20, 1354, h⟩, [20], [1354]⟩ ⟨rfl, rfl, rfl, rfl, rfl, rfl⟩ ⟨rfl, rfl⟩ 10 [10] rfl (by simp [Conv.scanRows]) junk

/-- equal floating types: the typed simple function is the simple function -/
theorem simpleTyped_same {t : DType} (ht : t ≠ .other) (mc : ModisSimple.MapCoord α) (coarse fine : Nat) (x y : Arr2 α) (junk) :
    ModisSimple.interpolateTyped mc coarse fine ⟨t, 2, x⟩ ⟨t, 2, y⟩ junk
      = (ModisSimple.interpolate mc coarse fine x y junk).map (fun o => (t, o)) := by
  unfold ModisSimple.interpolateTyped
  cases t with
  | other => exact absurd rfl ht
  | float32 =>
    simp only [fusedSelect, acquire, bind, Except.bind, and_self, if_true, ne_eq, not_true_eq_false, if_false]
    cases ModisSimple.interpolate mc coarse fine x y junk <;> rfl
  | float64 =>
    simp only [fusedSelect, acquire, bind, Except.bind, and_self, if_true, ne_eq, not_true_eq_false, if_false]
    cases ModisSimple.interpolate mc coarse fine x y junk <;> rfl

/-- **C78 (simple interpolation)**: for whole scans of 1354 columns in dask arrays of one type, float32 or float64, the lazy
result declares that type, every block has it, and the values are those of the eager call. -/
theorem C78_simple (c : SConv) (mc : ModisSimple.MapCoord α) (t : DType) (ht : t ≠ .other) (n : Nat) (lon lat : DArr α)
    (h : SInput n lon.data lat.data) (hw : lon.data.cols = 1354)
    (hwf : lon.WF) (r0 : Nat) (cs : List Nat) (hr : lon.rowChunks = r0 :: cs) (hr0 : n = 0 ∨ 10 ≤ r0)
    (junk : Nat → Nat → Nat → Nat → α) (junk' : Nat → Nat → Nat → Nat → Nat → α) :
    ∃ out l, c.run mc lon.data lat.data junk = .ok out ∧
      ModisLazyDType.lazySimple mc (1000 / c.factor) (t, lon) (t, lat) junk' = .ok l ∧
      l.declared = t ∧ AllOfType l t ∧ LazyEq (untyped l) out := by
  obtain ⟨out, l0, e1, e2, e3⟩ := C30_lazy_eager_simple c mc n lon lat h hw hwf r0 cs hr hr0 junk junk'
  have hu : (ModisLazyDType.lazySimple mc (1000 / c.factor) (t, lon) (t, lat) junk').map untyped = .ok l0 := by
    rw [ModisLazyDType.lazySimple, lazyTyped_untyped, ← e2, lazySimple1km]
    refine typed_lazyInterp_congr (fun k bs hb => ?_)
    obtain ⟨x, y, rfl⟩ := length_two hb
    simp only [erasedTask, List.map_cons, List.map_nil, List.zipWith_cons_cons, List.zipWith_nil_right, handler, typedSimple,
      both, bind, Except.bind, simpleTyped_same ht, simpleTask]
    cases ModisSimple.interpolate mc 1000 (1000 / c.factor) x y (junk' k) <;> rfl
  cases hl : ModisLazyDType.lazySimple mc (1000 / c.factor) (t, lon) (t, lat) junk' with
  | error e => rw [hl] at hu; cases hu
  | ok l =>
    rw [hl] at hu
    injection hu with hu
    obtain ⟨hd, hty⟩ := C78_declared_simple mc _ _ _ _ l hl
    exact ⟨out, l, e1, rfl, hd, allOfType hd hty (by rw [hu]; exact e3), by rw [hu]; exact e3⟩

/-- float64 -/
example (mc : ModisSimple.MapCoord α) (f g : Nat → Nat → α) (junk junk') :=
  C78_simple .km1to500 mc .float64 (by simp) 3 ⟨⟨30, 1354, f⟩, [25, 5], [1354]⟩ ⟨⟨30, 1354, g⟩, [30], [1354]⟩
    ⟨by simp, rfl, rfl, rfl⟩ rfl ⟨rfl, rfl⟩ 25 [5] rfl (by simp) junk junk'

/-- the hypothesis of `C78_declared` for longitudes, latitudes and angles of three different types -/
example (f g h : Nat → Nat → α) (junk) : ∃ l, lazyTypedRun .km1to500 (.float32, ⟨⟨10, 1354, f⟩, [10], [1354]⟩)
    (.float64, ⟨⟨10, 1354, g⟩, [10], [1354]⟩) (.other, ⟨⟨10, 1354, h⟩, [10], [1354]⟩) junk = .ok l ∧ l.declared = .float32 := by
  simp [lazyTypedRun, ModisLazyDType.lazyAngle, lazyTyped, rowsPerScan, rechunkIfNeeded, DArr.rechunkRows, blockdims, finePerKm,
    bind, Except.bind, pure, Except.pure]

example (f g h : Nat → Nat → α) (junk) : ∃ l, lazyTypedRun .km1to500 (.float32, ⟨⟨10, 1354, f⟩, [10], [1354]⟩)
    (.float64, ⟨⟨10, 1354, g⟩, [10], [1354]⟩) (.other, ⟨⟨10, 1354, h⟩, [10], [1354]⟩) junk = .ok l ∧
    ∀ t out, .ok (t, out) ∈ l.blocks → t = l.declared := by
  have e : ∃ l, lazyTypedRun .km1to500 (.float32, ⟨⟨10, 1354, f⟩, [10], [1354]⟩)
      (.float64, ⟨⟨10, 1354, g⟩, [10], [1354]⟩) (.other, ⟨⟨10, 1354, h⟩, [10], [1354]⟩) junk = .ok l := by
    simp [lazyTypedRun, ModisLazyDType.lazyAngle, lazyTyped, rowsPerScan, rechunkIfNeeded, DArr.rechunkRows, blockdims, finePerKm,
      bind, Except.bind, pure, Except.pure]
  obtain ⟨l, hl⟩ := e
  exact ⟨l, hl, (C78_declared _ _ _ _ junk l hl).2⟩

example (mc : ModisSimple.MapCoord α) (f g : Nat → Nat → α) (junk) (l : TLazy α)
    (h : ModisLazyDType.lazySimple mc 500 (.float64, ⟨⟨30, 1354, f⟩, [25, 5], [1354]⟩) (.float32, ⟨⟨30, 1354, g⟩, [30], [1354]⟩) junk = .ok l) :
    l.declared = .float64 := (C78_declared_simple mc 500 _ _ junk l h).1

end Verif.Props
