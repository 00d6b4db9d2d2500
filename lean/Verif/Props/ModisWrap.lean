import Verif.Proofs.ModisWrap
import Verif.Props.ModisDask
import Verif.Props.ModisNum

/-!
# C53: the containers of the MODIS functions

The structural theorems hold for every arithmetic `α`.
-/

namespace Verif.Props
open Verif Verif.Modis Verif.ModisDask Verif.ModisWrap

section structural
variable {α : Type}

/-! ### refused calls -/

/-- **C53 (missing resolutions)**: without both resolutions the call is a `ValueError`, whatever the arguments. -/
theorem C53_missing_resolution (func : Nat → List (Arg α) → Except Err (Arr2 α × Arr2 α)) (args : List (Arg α))
    (coarse fine : Option Nat) (h : coarse = none ∨ fine = none) : wrapper func args coarse fine = .error .valueError := by
  rcases coarse with _ | a <;> rcases fine with _ | b <;> first | rfl | (simp at h)

/-- **C53 (no array)**: a call without any array is an `IndexError`. -/
theorem C53_no_array (func : Nat → List (Arg α) → Except Err (Arr2 α × Arr2 α)) (args : List (Arg α)) (coarse fine : Nat)
    (h : ∀ a ∈ args, a = .other) : wrapper func args (some coarse) (some fine) = .error .indexError := by
  have : args.find? Arg.hasNdim = none := by
    rw [List.find?_eq_none]
    intro a ha
    rw [h a ha]
    simp [Arg.hasNdim]
  simp only [wrapper, this]

/-- **C53 (number of dimensions)**: if the first array is not two-dimensional the call is a `ValueError`. -/
theorem C53_not_2d (func : Nat → List (Arg α) → Except Err (Arr2 α × Arr2 α)) (pre rest : List (Arg α)) (isLazy : Bool)
    (shape : List Nat) (coarse fine : Nat) (h : ∀ a ∈ pre, a = .other) :
    wrapper func (pre ++ .nd isLazy shape :: rest) (some coarse) (some fine) = .error .valueError := by
  have : (pre ++ .nd isLazy shape :: rest).find? Arg.hasNdim = some (.nd isLazy shape) := by
    rw [List.find?_append]
    have hp : pre.find? Arg.hasNdim = none := by
      rw [List.find?_eq_none]
      intro a ha
      rw [h a ha]
      simp [Arg.hasNdim]
    rw [hp]
    rfl
  simp only [wrapper, this]

example (func : Nat → List (Arg α) → Except Err (Arr2 α × Arr2 α)) (a : Arg α) :=
  C53_missing_resolution func [a] (some 1000) none (Or.inr rfl)
example (func : Nat → List (Arg α) → Except Err (Arr2 α × Arr2 α)) :=
  C53_no_array func [.other, .other] 1000 500 (by simp)
example (func : Nat → List (Arg α) → Except Err (Arr2 α × Arr2 α)) :=
  C53_not_2d func [.other] [.other] true [10, 20, 30] 1000 500 (by simp)

variable [Trig α]

/-- the public function on any arguments -/
def Conv.call (c : Conv) (junk : Nat → Nat → Nat → Nat → Nat → α) (lon lat satz : Arg α) : Except Err (Res α) :=
  match c with
  | .km1to500 => angle1km 500 junk lon lat satz
  | .km1to250 => angle1km 250 junk lon lat satz
  | .km5to1 => angle5km 1000 junk lon lat satz
  | .km5to500 => angle5km 500 junk lon lat satz
  | .km5to250 => angle5km 250 junk lon lat satz

theorem Conv.call_eq (c : Conv) (junk : Nat → Nat → Nat → Nat → Nat → α) (lon lat satz : Arg α) {w : Nat}
    (h : lon.width = .ok w) :
    c.call junk lon lat satz
      = wrapper (angleFunc c.coarse c.fine (c.widthArg w) junk) [lon, lat, satz] (some c.coarse) (some c.fine) := by
  cases c <;> simp only [Conv.call, angle1km, angle5km, h, bind, Except.bind] <;> rfl

/-- does the function have five-kilometre input? -/
def Conv.from5km : Conv → Bool
  | .km1to500 | .km1to250 => false
  | _ => true

/-- **C53 (first argument not 2-d)**: a public function with a first argument that is an array of another number of dimensions raises,
whatever the others are: `ValueError`, but `IndexError` from the 5 km functions where it has fewer than two dimensions, as these read
its width before the check. -/
theorem C53_first_not_2d (c : Conv) (isLazy : Bool) (shape : List Nat) (lat satz : Arg α) (junk) :
    c.call junk (.nd isLazy shape) lat satz = .error (if c.from5km ∧ shape.length < 2 then .indexError else .valueError) := by
  have hw : ∀ func coarse fine, wrapper (α := α) func [.nd isLazy shape, lat, satz] (some coarse) (some fine) = .error .valueError :=
    fun func coarse fine => C53_not_2d func [] [lat, satz] isLazy shape coarse fine (by simp)
  rcases shape with _ | ⟨a, _ | ⟨b, shape⟩⟩ <;> cases c <;>
    simp [Conv.call, Conv.from5km, angle1km, angle5km, hw, Arg.width, bind, Except.bind]

/-- **C53 (first argument not an array)**: the 5 km functions raise `AttributeError` if the first argument has no shape. -/
theorem C53_first_no_array (c : Conv) (lat satz : Arg α) (junk) (h : c.from5km) :
    c.call junk .other lat satz = .error .attributeError := by
  cases c <;> first | rfl | simp [Conv.from5km] at h

example (junk) (lat satz : Arg α) : Conv.km5to1.call junk (.nd false [2030]) lat satz = .error .indexError :=
  C53_first_not_2d .km5to1 false [2030] lat satz junk
example (junk) (lat satz : Arg α) : Conv.km5to1.call junk (.nd true [10, 2030, 3]) lat satz = .error .valueError :=
  C53_first_not_2d .km5to1 true [10, 2030, 3] lat satz junk
example (junk) (lat satz : Arg α) := C53_first_no_array .km5to250 lat satz junk rfl

/-! ### uniform arguments -/

/-- **C53 (numpy)**: three numpy arrays go straight to the eager function. -/
theorem C53_numpy (c : Conv) (lon lat satz : Arr2 α) (junk) :
    c.call junk (.arr none (.numpy lon)) (.arr none (.numpy lat)) (.arr none (.numpy satz))
      = (c.run lon lat satz (junk 0)).map .numpy := by
  rw [c.call_eq junk _ _ _ (w := lon.cols) rfl, ← c.interpolate_eq_run]
  have hf : [(.arr none (.numpy lon) : Arg α), .arr none (.numpy lat), .arr none (.numpy satz)].find? Arg.hasNdim
    = some (.arr none (.numpy lon)) := rfl
  simp only [wrapper, hf, angleFunc, bind, Except.bind]
  cases Modis.interpolate c.coarse c.fine (c.widthArg lon.cols) lon lat satz (junk 0) <;> rfl

example (f : Nat → Nat → α) (junk) : ∃ out, Conv.km5to1.run (⟨4, 271, f⟩ : Arr2 α) ⟨4, 271, f⟩ ⟨4, 271, f⟩ (junk 0) = .ok out ∧
    Conv.km5to1.call junk (.arr none (.numpy ⟨4, 271, f⟩)) (.arr none (.numpy ⟨4, 271, f⟩)) (.arr none (.numpy ⟨4, 271, f⟩))
      = .ok (.numpy out) := by
  obtain ⟨L, A, h⟩ := C27_safe_initialised .km5to1 2 (⟨4, 271, f⟩ : Arr2 α) ⟨4, 271, f⟩ ⟨4, 271, f⟩ ⟨Or.inr rfl, rfl, rfl, rfl, rfl, rfl⟩
  obtain ⟨out, e, _⟩ := h (junk 0)
  exact ⟨out, e, by rw [C53_numpy, e]; rfl⟩

theorem wrap_lazy (c : Conv) (d1 d2 d3 : Option (String × String)) (lon lat satz : DArr α) (junk) :
    c.call junk (.arr d1 (.dask lon)) (.arr d2 (.dask lat)) (.arr d3 (.dask satz))
      = (lazyInterp (fun k l => angleFunc c.coarse c.fine (c.widthArg lon.data.cols) junk k (l.map np)) c.coarse c.fine lon
          [lat, satz]).map (Res.of d1) := by
  rw [c.call_eq junk _ _ _ (w := lon.data.cols) rfl]
  exact wrapper_dask _ _ _ d1 lon [d2, d3] [lat, satz] rfl

/-- tasks depend on the function only through its values on lists of as many arrays as there are arguments -/
theorem tasks_congr {f g : Nat → List (Arr2 α) → Except Err (Arr2 α × Arr2 α)} {args : List (DArr α)}
    (h : ∀ k l, l.length = args.length → f k l = g k l) (rs : List (Nat × Nat)) :
    ∀ k, tasks f args k rs = tasks g args k rs := by
  induction rs with
  | nil => intro k; rfl
  | cons r rs ih =>
    intro k
    simp only [tasks, ih]
    rw [h _ _ (by simp)]

theorem mapM_length {β γ : Type} (f : β → Except Err γ) (l : List β) : ∀ l', l.mapM f = .ok l' → l'.length = l.length := by
  induction l with
  | nil => intro l' h; cases h; rfl
  | cons a l ih =>
    intro l' h
    rw [List.mapM_cons] at h
    simp only [bind, Except.bind] at h
    split at h
    · cases h
    · split at h
      · cases h
      · rename_i _ _ _ _ hl
        injection h with h
        rw [← h, List.length_cons, List.length_cons, ih _ hl]

theorem lazyInterp_congr {f g : Nat → List (Arr2 α) → Except Err (Arr2 α × Arr2 α)} (coarse fine : Nat) (first : DArr α)
    (rest : List (DArr α)) (h : ∀ k l, l.length = rest.length + 1 → f k l = g k l) :
    lazyInterp f coarse fine first rest = lazyInterp g coarse fine first rest := by
  unfold lazyInterp
  cases rowsPerScan coarse with
  | error e => rfl
  | ok rps =>
    simp only [bind, Except.bind]
    cases hr : rechunkIfNeeded rps first rest with
    | error e => rfl
    | ok args =>
      have hl : args.length = rest.length + 1 := by
        unfold rechunkIfNeeded at hr
        simp only at hr
        split_ifs at hr
        · injection hr with hr; rw [← hr]; rfl
        · split at hr
          · cases hr
          · exact mapM_length _ _ _ hr
      simp only [callMapBlocks]
      cases args with
      | nil => rfl
      | cons a args => simp only [tasks_congr (f := f) (g := g) (args := a :: args) (fun k l hk => h k l (by rw [hk, hl]))]

/-- **C53 (dask)**: dask arrays, plain or inside `DataArray`s (in any mixture), behave as in the lazy run `c.lazyRun` on the
dask arrays; the result is wrapped in `DataArray`s exactly when the longitudes are one, with their dimension names. -/
theorem C53_dask (c : Conv) (d1 d2 d3 : Option (String × String)) (lon lat satz : DArr α) (junk) :
    c.call junk (.arr d1 (.dask lon)) (.arr d2 (.dask lat)) (.arr d3 (.dask satz))
      = (c.lazyRun lon lat satz junk).map (fun l => match d1 with
          | some d => .dataArrays d l
          | none => .dask l) := by
  rw [wrap_lazy, c.lazyRun_eq]
  have : lazyInterp (fun k l => angleFunc c.coarse c.fine (c.widthArg lon.data.cols) junk k (l.map np)) c.coarse c.fine lon
          [lat, satz] = lazyInterp (angleTask c.coarse c.fine (c.widthArg lon.data.cols) junk) c.coarse c.fine lon
          [lat, satz] := by
    refine lazyInterp_congr _ _ _ _ fun k l hl => ?_
    match l, hl with
    | [a, b, c], _ => rfl
  rw [this]
  rfl

example (a : DArr α) (junk) : Conv.km1to500.call junk (.arr (some ("y", "x")) (.dask a)) (.arr none (.dask a)) (.arr none (.dask a))
    = (Conv.km1to500.lazyRun a a a junk).map (.dataArrays ("y", "x")) := C53_dask _ _ _ _ _ _ _ _

/-- **C53, partial**: for whole scans in dask arrays or `DataArray`s of dask arrays (in any mixture), the first row chunk of
the longitudes holding at least one scan, the call succeeds and its content is that of the eager call on the numpy
arrays.  Missing: numpy arrays inside `DataArray`s or beside dask arrays, where it is false (see the negations). -/
theorem C53_containers_partial (c : Conv) (n : Nat) (d1 d2 d3 : Option (String × String)) (lon lat satz : DArr α)
    (h : ScanInput c n lon.data lat.data satz.data)
    (hwf : lon.WF) (r0 : Nat) (cs : List Nat) (hr : lon.rowChunks = r0 :: cs) (hr0 : n = 0 ∨ c.scanRows ≤ r0) (junk junk') :
    ∃ out l, c.call junk (.arr none (.numpy lon.data)) (.arr none (.numpy lat.data)) (.arr none (.numpy satz.data))
        = .ok (.numpy out) ∧
      c.call junk' (.arr d1 (.dask lon)) (.arr d2 (.dask lat)) (.arr d3 (.dask satz)) = .ok (match d1 with
          | some d => .dataArrays d l
          | none => .dask l) ∧ LazyEq l out := by
  obtain ⟨out, l, e1, e2, e3⟩ := C30_lazy_eager c n lon lat satz h hwf r0 cs hr hr0 (junk 0) junk'
  exact ⟨out, l, by rw [C53_numpy, e1]; rfl, by rw [C53_dask, e2]; cases d1 <;> rfl, e3⟩

example (f g h : Nat → Nat → α) (junk junk') :=
  C53_containers_partial .km1to250 4 (some ("y", "x")) none (some ("lines", "pixels"))
    ⟨⟨40, 1354, f⟩, [15, 5, 20], [1000, 354]⟩ ⟨⟨40, 1354, g⟩, [40], [1354]⟩
    ⟨⟨40, 1354, h⟩, [7, 33], [354, 1000]⟩ ⟨rfl, rfl, rfl, rfl, rfl, rfl⟩ ⟨rfl, rfl⟩ 15 [5, 20] rfl (by simp [Conv.scanRows])
    junk junk'

/-! ### other mixtures -/

/-- **C53, negation (numpy in a `DataArray`)**: if the longitudes are a `DataArray` of a numpy array the call is an
`AttributeError`, whatever the content and the other arguments. -/
theorem C53_negation_numpy_dataarray (c : Conv) (dims : String × String) (lon : Arr2 α) (lat satz : Arg α) (junk) :
    c.call junk (.arr (some dims) (.numpy lon)) lat satz = .error .attributeError := by
  rw [c.call_eq junk _ _ _ (w := lon.cols) rfl]
  cases c <;> rfl

/-- **C53 (numpy first)**: numpy longitudes with anything but numpy arrays beside them are refused. -/
theorem C53_numpy_first (c : Conv) (lon : Arr2 α) (lat satz : Arg α) (junk)
    (h : ¬ ((∃ a, lat = .arr none (.numpy a)) ∧ ∃ a, satz = .arr none (.numpy a))) :
    ∃ e, c.call junk (.arr none (.numpy lon)) lat satz = .error e ∧ (e = .typeError ∨ e = .valueError) := by
  rw [c.call_eq junk _ _ _ (w := lon.cols) rfl]
  have hf : [(.arr none (.numpy lon) : Arg α), lat, satz].find? Arg.hasNdim = some (.arr none (.numpy lon)) := rfl
  simp only [wrapper, hf]
  suffices ∃ e, angleFunc c.coarse c.fine (c.widthArg lon.cols) junk 0 [.arr none (.numpy lon), lat, satz] = .error e ∧
      (e = .typeError ∨ e = .valueError) by
    obtain ⟨e, he, h'⟩ := this
    exact ⟨e, by rw [he]; rfl, h'⟩
  unfold angleFunc
  split
  · rename_i _ a b d heq
    simp only [List.cons.injEq, and_true] at heq
    exact absurd ⟨⟨_, heq.2.1⟩, _, heq.2.2⟩ h
  · exact ⟨_, rfl, Or.inr rfl⟩
  · exact ⟨_, rfl, Or.inr rfl⟩
  · exact ⟨_, rfl, Or.inl rfl⟩

example (f : Nat → Nat → α) (a : DArr α) (junk) :=
  C53_numpy_first .km5to1 ⟨2, 271, f⟩ (.arr none (.dask a)) (.arr none (.dask a)) junk (by simp)

/-- **C53 (numpy first, which error)**: ValueError if the first other argument in question is a numpy array with another number
of dimensions, TypeError otherwise. -/
theorem C53_numpy_first_error (c : Conv) (lon : Arr2 α) (lat satz : Arg α) (junk) :
    (∀ shape, lat = .nd false shape → c.call junk (.arr none (.numpy lon)) lat satz = .error .valueError) ∧
    (∀ a shape, lat = .arr none (.numpy a) → satz = .nd false shape →
      c.call junk (.arr none (.numpy lon)) lat satz = .error .valueError) ∧
    ((∀ shape, lat ≠ .nd false shape) → (∀ a, lat ≠ .arr none (.numpy a)) →
      c.call junk (.arr none (.numpy lon)) lat satz = .error .typeError) ∧
    (∀ a, lat = .arr none (.numpy a) → (∀ shape, satz ≠ .nd false shape) → (∀ a, satz ≠ .arr none (.numpy a)) →
      c.call junk (.arr none (.numpy lon)) lat satz = .error .typeError) := by
  have hf : [(.arr none (.numpy lon) : Arg α), lat, satz].find? Arg.hasNdim = some (.arr none (.numpy lon)) := rfl
  have key : ∀ e, angleFunc c.coarse c.fine (c.widthArg lon.cols) junk 0 [.arr none (.numpy lon), lat, satz] = .error e →
      c.call junk (.arr none (.numpy lon)) lat satz = .error e := by
    intro e he
    rw [c.call_eq junk _ _ _ (w := lon.cols) rfl]
    simp only [wrapper, hf, he]
    rfl
  refine ⟨?_, ?_, ?_, ?_⟩
  · rintro shape rfl
    exact key _ rfl
  · rintro a shape rfl rfl
    exact key _ rfl
  · intro h1 h2
    refine key _ ?_
    unfold angleFunc
    split
    · rename_i heq
      simp only [List.cons.injEq, and_true] at heq
      exact absurd heq.2.1 (h2 _)
    · rename_i heq
      simp only [List.cons.injEq, and_true] at heq
      exact absurd heq.2.1 (h1 _)
    · rename_i heq
      simp only [List.cons.injEq, and_true] at heq
      exact absurd heq.2.1 (h2 _)
    · rfl
  · rintro a rfl h1 h2
    refine key _ ?_
    unfold angleFunc
    split
    · rename_i heq
      simp only [List.cons.injEq, and_true] at heq
      exact absurd heq.2.2 (h2 _)
    · rename_i heq
      simp at heq
    · rename_i heq
      simp only [List.cons.injEq, and_true] at heq
      exact absurd heq.2.2 (h1 _)
    · rfl

example (f : Nat → Nat → α) (junk) :
    Conv.km1to500.call junk (.arr none (.numpy ⟨10, 1354, f⟩)) (.arr none (.numpy ⟨10, 1354, f⟩)) (.nd false [10]) = .error .valueError :=
  (C53_numpy_first_error .km1to500 _ _ _ junk).2.1 _ _ rfl rfl

/-! ### later arguments that are not two-dimensional -/

/-- a lazy array with another number of dimensions cannot be rechunked, whatever stands around it -/
theorem rechunk_nd_error (r : Nat) (l : List (Arg α)) (hr : 0 < r) (h : ∃ s, Arg.nd true s ∈ l) :
    l.mapM (Arg.rechunk r) = .error .valueError := by
  induction l with
  | nil => simp at h
  | cons a l ih =>
    obtain ⟨s, hs⟩ := h
    rw [List.mapM_cons]
    rcases List.mem_cons.mp hs with rfl | hs
    · rfl
    · rw [ih ⟨s, hs⟩]
      rcases a with ⟨dims, a | a⟩ | ⟨b, s'⟩ | _
      · rfl
      · simp only [Arg.rechunk, DArr.rechunkRows, blockdims, bind, Except.bind]
        rw [if_neg (by omega : ¬ r = 0)]
        split_ifs <;> rfl
      · cases b <;> rfl
      · rfl

/-- **C53 (a later lazy argument that is not two-dimensional)**: longitudes in a dask array whose first row chunk holds a
scan, and a lazy array with another number of dimensions as latitudes or zenith angles (the other one being anything):
`ValueError` when the call is made. -/
theorem C53_lazy_not_2d (c : Conv) (d1 : Option (String × String)) (lon : DArr α) (hwf : lon.WF) (r0 : Nat) (cs : List Nat)
    (hr : lon.rowChunks = r0 :: cs) (hr0 : c.scanRows ≤ r0) (lat satz : Arg α)
    (h : (∃ s, lat = .nd true s) ∨ ∃ s, satz = .nd true s) (junk) :
    c.call junk (.arr d1 (.dask lon)) lat satz = .error .valueError := by
  rw [c.call_eq junk _ _ _ (w := lon.data.cols) rfl]
  have hpos : 0 < c.scanRows := by cases c <;> simp [Conv.scanRows]
  have hrps : rowsPerScan c.coarse = .ok c.scanRows := by cases c <;> rfl
  have hq : 0 < r0 / c.scanRows * c.scanRows := Nat.mul_pos (Nat.div_pos hr0 hpos) hpos
  have hgood : (lon.colChunks.length == 1 && lon.colChunks.headD 0 != lon.data.cols) = false := by
    have := hwf.cols
    rcases hcc : lon.colChunks with _ | ⟨x, _ | ⟨y, t⟩⟩
    · rfl
    · rw [hcc] at this
      simpa using this
    · rfl
  have hre : rechunkArgs c.scanRows [mk lon, lat.extract, satz.extract] = .error .valueError := by
    have hfi : [mk lon, lat.extract, satz.extract].find? Arg.hasNdim = some (mk lon) := rfl
    simp only [rechunkArgs, hfi, hgood, Bool.and_false, Bool.false_and, hr, Bool.false_eq_true, if_false]
    split_ifs
    · rfl
    · refine rechunk_nd_error _ _ hq ?_
      rcases h with ⟨s, rfl⟩ | ⟨s, rfl⟩
      · exact ⟨s, by simp [Arg.extract]⟩
      · exact ⟨s, by simp [Arg.extract]⟩
  have hf : [Arg.arr d1 (.dask lon), lat, satz].find? Arg.hasNdim = some (.arr d1 (.dask lon)) := rfl
  have hm : [Arg.arr d1 (.dask lon), lat, satz].map Arg.extract = [mk lon, lat.extract, satz.extract] := rfl
  simp only [wrapper, hf, hm, hrps, hre, bind, Except.bind]
  cases d1 <;> rfl

example (a : Arr2 α) (f : Nat → Nat → α) (junk) :=
  C53_lazy_not_2d .km5to1 (some ("y", "x")) ⟨⟨4, 270, f⟩, [2, 2], [270]⟩ ⟨rfl, rfl⟩ 2 [2] rfl (le_refl 2)
    (.arr none (.numpy a)) (.nd true [4, 270, 2]) (Or.inr ⟨_, rfl⟩) junk

/-- **C53 (a later numpy argument that is not two-dimensional)**: with longitudes and zenith angles in dask arrays the call
succeeds, and fails only when the result is computed. -/
theorem C53_numpy_not_2d (c : Conv) (n : Nat) (d1 d3 : Option (String × String)) (lon satz : DArr α) (shape : List Nat)
    (hwf : lon.WF) (hn : lon.data.rows = n * c.scanRows) (r0 : Nat) (cs : List Nat)
    (hr : lon.rowChunks = r0 :: cs) (hr0 : c.scanRows ≤ r0) (junk) :
    ∃ l, c.call junk (.arr d1 (.dask lon)) (.nd false shape) (.arr d3 (.dask satz)) = .ok (Res.of d1 l) ∧
      ∀ d, l.compute d = .error .valueError := by
  rw [c.call_eq junk _ _ _ (w := lon.data.cols) rfl]
  have hpos : 0 < c.scanRows := by cases c <;> simp [Conv.scanRows]
  have hrps : rowsPerScan c.coarse = .ok c.scanRows := by cases c <;> rfl
  have hq : r0 / c.scanRows * c.scanRows ≠ 0 := (Nat.mul_pos (Nat.div_pos hr0 hpos) hpos).ne'
  obtain ⟨kk, hk⟩ : ∃ kk, finePerKm c.fine = .ok kk := by cases c <;> exact ⟨_, rfl⟩
  have h0 : ¬ c.fine = 0 := by cases c <;> simp [Conv.fine]
  have hgood : (lon.colChunks.length == 1 && lon.colChunks.headD 0 != lon.data.cols) = false := by
    have := hwf.cols
    rcases hcc : lon.colChunks with _ | ⟨x, _ | ⟨y, t⟩⟩
    · rfl
    · rw [hcc] at this
      simpa using this
    · rfl
  have hbd : ∀ m, ∃ b, blockdims m (r0 / c.scanRows * c.scanRows) = .ok b ∧ b ≠ [] := by
    intro m
    unfold blockdims
    by_cases hm : m = 0
    · exact ⟨_, by rw [if_pos hm], by simp⟩
    · refine ⟨_, by rw [if_neg hm, if_neg hq], ?_⟩
      intro hnil
      have := List.append_eq_nil_iff.mp hnil
      have h1 : m / (r0 / c.scanRows * c.scanRows) = 0 := by
        have := congrArg List.length this.1
        simpa only [List.length_replicate, List.length_nil] using this
      have h2 : m % (r0 / c.scanRows * c.scanRows) = 0 := by
        by_contra hne
        simp [if_neg hne] at this
      have := Nat.div_add_mod m (r0 / c.scanRows * c.scanRows)
      rw [h1, h2] at this
      omega
  obtain ⟨b1, e1, ne1⟩ := hbd lon.data.rows
  obtain ⟨b3, e3, _⟩ := hbd satz.data.rows
  have hre : rechunkArgs c.scanRows [mk lon, .nd false shape, mk satz]
      = .ok [mk ⟨lon.data, b1, [lon.data.cols]⟩, .nd false shape, mk ⟨satz.data, b3, [satz.data.cols]⟩] := by
    have hfi : [mk lon, .nd false shape, mk satz].find? Arg.hasNdim = some (mk lon) := rfl
    simp only [rechunkArgs, hfi, hgood, Bool.and_false, Bool.false_and, hr]
    rw [if_neg (by rw [hn, Nat.mul_mod_left]; simp)]
    simp only [Bool.false_eq_true, if_false, List.mapM_cons, List.mapM_nil, Arg.rechunk, DArr.rechunkRows, e1, e3, bind,
      Except.bind, pure, Except.pure]
  have hf : [Arg.arr d1 (.dask lon), .nd false shape, .arr d3 (.dask satz)].find? Arg.hasNdim = some (.arr d1 (.dask lon)) :=
    rfl
  have hm : [Arg.arr d1 (.dask lon), .nd false shape, .arr d3 (.dask satz)].map Arg.extract
    = [mk lon, .nd false shape, mk satz] := rfl
  refine ⟨⟨b1.map (· * (c.coarse / c.fine)), [1354 * kk], wtasks (angleFunc c.coarse c.fine (c.widthArg lon.data.cols) junk)
      [mk ⟨lon.data, b1, [lon.data.cols]⟩, .nd false shape, mk ⟨satz.data, b3, [satz.data.cols]⟩] 0 (blockRanges 0 b1)⟩,
    ?_, ?_⟩
  · have hfi : [mk ⟨lon.data, b1, [lon.data.cols]⟩, .nd false shape, mk ⟨satz.data, b3, [satz.data.cols]⟩].find?
        Arg.hasNdim = some (mk ⟨lon.data, b1, [lon.data.cols]⟩) := rfl
    simp only [wrapper, hf, hm, hrps, hre, bind, Except.bind, wcallMapBlocks, hfi, if_neg h0, hk]
    cases d1 <;> rfl
  · intro d
    obtain ⟨x, t, rfl⟩ := List.exists_cons_of_ne_nil ne1
    simp only [Lazy.compute, blockRanges, wtasks, List.mapM_cons]
    rfl

example (f : Nat → Nat → α) (junk) :=
  C53_numpy_not_2d .km1to500 2 none none ⟨⟨20, 1354, f⟩, [10, 10], [1354]⟩ ⟨⟨20, 1354, f⟩, [20], [1354]⟩ [20]
    ⟨rfl, rfl⟩ rfl 10 [10] rfl (le_refl 10) junk

/-! ### the simple interpolator -/

/-- **C53 (simple interpolator, numpy)** -/
theorem C53_simple_numpy (c : SConv) (mc : ModisSimple.MapCoord α) (lon lat : Arr2 α) (junk) :
    simple1km mc (1000 / c.factor) junk (.arr none (.numpy lon)) (.arr none (.numpy lat))
      = (c.run mc lon lat (junk 0)).map .numpy := by
  have hf : [(.arr none (.numpy lon) : Arg α), .arr none (.numpy lat)].find? Arg.hasNdim
    = some (.arr none (.numpy lon)) := rfl
  simp only [simple1km, wrapper, hf, simpleFunc, bind, Except.bind]
  have : c.run mc lon lat (junk 0) = ModisSimple.interpolate mc 1000 (1000 / c.factor) lon lat (junk 0) := by
    cases c <;> rfl
  rw [this]
  cases ModisSimple.interpolate mc 1000 (1000 / c.factor) lon lat (junk 0) <;> rfl

example (mc : ModisSimple.MapCoord α) (f : Nat → Nat → α) (junk) :
    simple1km mc 250 junk (.arr none (.numpy ⟨10, 1354, f⟩)) (.arr none (.numpy ⟨10, 1354, f⟩))
      = (SConv.km1to250.run mc ⟨10, 1354, f⟩ ⟨10, 1354, f⟩ (junk 0)).map .numpy := C53_simple_numpy .km1to250 mc _ _ junk

/-- **C53 (simple interpolator, dask)** -/
theorem C53_simple_dask (mc : ModisSimple.MapCoord α) (fine : Nat) (d1 d2 : Option (String × String)) (lon lat : DArr α)
    (junk) :
    simple1km mc fine junk (.arr d1 (.dask lon)) (.arr d2 (.dask lat))
      = (lazySimple1km mc fine lon lat junk).map (fun l => match d1 with
          | some d => .dataArrays d l
          | none => .dask l) := by
  have h := wrapper_dask (simpleFunc mc 1000 fine junk) 1000 fine d1 lon [d2] [lat] rfl
  have hc : lazyInterp (fun k l => simpleFunc mc 1000 fine junk k (l.map np)) 1000 fine lon [lat]
      = lazyInterp (simpleTask mc fine junk) 1000 fine lon [lat] := by
    refine lazyInterp_congr _ _ _ _ fun k l hl => ?_
    match l, hl with
    | [a, b], _ => rfl
  rw [hc] at h
  exact h

example (mc : ModisSimple.MapCoord α) (a : DArr α) (junk) : simple1km mc 500 junk (.arr none (.dask a)) (.arr (some ("y", "x")) (.dask a))
    = (lazySimple1km mc 500 a a junk).map .dask := C53_simple_dask mc 500 _ _ _ _ junk

/-- **C53, negation (simple interpolator, numpy in a `DataArray`)** -/
theorem C53_negation_simple_dataarray (mc : ModisSimple.MapCoord α) (fine : Nat) (dims : String × String) (lon : Arr2 α)
    (lat : Arg α) (junk) :
    simple1km mc fine junk (.arr (some dims) (.numpy lon)) lat = .error .attributeError := rfl

/-- **C53 (simple interpolator, numpy first)**: numpy longitudes with anything else than a numpy array beside them: ValueError
for a numpy array with another number of dimensions, TypeError for everything else. -/
theorem C53_simple_numpy_first (mc : ModisSimple.MapCoord α) (fine : Nat) (lon : Arr2 α) (lat : Arg α) (junk) :
    (∀ shape, lat = .nd false shape → simple1km mc fine junk (.arr none (.numpy lon)) lat = .error .valueError) ∧
    ((∀ shape, lat ≠ .nd false shape) → (∀ a, lat ≠ .arr none (.numpy a)) →
      simple1km mc fine junk (.arr none (.numpy lon)) lat = .error .typeError) := by
  have hf : [(.arr none (.numpy lon) : Arg α), lat].find? Arg.hasNdim = some (.arr none (.numpy lon)) := rfl
  constructor
  · rintro shape rfl
    rfl
  · intro h1 h2
    have : simpleFunc mc 1000 fine junk 0 [.arr none (.numpy lon), lat] = .error .typeError := by
      unfold simpleFunc
      split
      · rename_i heq
        simp only [List.cons.injEq, and_true] at heq
        exact absurd heq.2 (h2 _)
      · rename_i heq
        simp only [List.cons.injEq, and_true] at heq
        exact absurd heq.2 (h1 _)
      · rfl
    simp only [simple1km, wrapper, hf, this]
    rfl

example (mc : ModisSimple.MapCoord α) (f : Nat → Nat → α) (a : DArr α) (junk) :
    simple1km mc 500 junk (.arr none (.numpy ⟨10, 1354, f⟩)) (.arr none (.dask a)) = .error .typeError :=
  (C53_simple_numpy_first mc 500 _ _ junk).2 (by simp) (by simp)

/-! ### dask and numpy mixed -/

/-- from the blocks to the computed array -/
theorem computes_of_blocks {l : Lazy α} {d : α} {f OC N : Nat} {G : Nat → Nat → α × α} {c0 : Nat} {cl : List Nat}
    {bs : List (Arr2 α × Arr2 α)} (hs : (c0 :: cl).sum = N) (hl : l.rowChunks = (c0 :: cl).map (· * f))
    (eb : l.blocks.mapM id = .ok bs)
    (b1 : bs.map (fun b => b.1.rows) = (c0 :: cl).map (· * f)) (b2 : bs.map (fun b => b.2.rows) = (c0 :: cl).map (· * f))
    (b3 : ∀ b ∈ bs, b.1.cols = OC ∧ b.2.cols = OC)
    (b4 : ∀ r c, r < (c0 :: cl).sum * f → c < OC →
        stackCell d (bs.map (·.1)) r c = (G (0 * f + r) c).1 ∧ stackCell d (bs.map (·.2)) r c = (G (0 * f + r) c).2) :
    l.Computes d (N * f) OC G := by
  have hs' : ((c0 :: cl).map (· * f)).sum = N * f := by rw [sum_map_mul, hs]
  refine ⟨by rw [hl, hs'], ⟨bs, eb, by rw [b1, hl], by rw [b2, hl], b3⟩, ?_⟩
  have hcols : (bs.map (fun b => b.1.cols)).headD 0 = OC := by
    cases bs with
    | nil => simp at b1
    | cons b bs => exact (b3 b (List.mem_cons_self ..)).1
  have hrow : (bs.map (fun b => b.1.rows)).sum = N * f := by rw [b1, hs']
  refine ⟨_, by simp only [Lazy.compute, eb, bind, Except.bind]; rfl, ⟨hrow, hcols, ?_⟩, ⟨hrow, hcols, ?_⟩⟩
  · intro i j hi hj _
    have := (b4 i j (by rw [hs]; exact hi) hj).1
    rw [Nat.zero_mul, Nat.zero_add] at this
    exact this
  · intro i j hi hj _
    have := (b4 i j (by rw [hs]; exact hi) hj).2
    rw [Nat.zero_mul, Nat.zero_add] at this
    exact this

theorem wtasks_mixed (func : Nat → List (Arg α) → Except Err (Arr2 α × Arr2 α)) (lon satz : DArr α) (lat : Arr2 α)
    (rs : List (Nat × Nat)) : ∀ k, wtasks func [mk lon, np lat, mk satz] k rs
      = tasks (fun k l => match l with
        | [a, b] => func k [np a, np lat, np b]
        | _ => .error .typeError) [lon, satz] k rs := by
  induction rs with
  | nil => intro k; rfl
  | cons r rs ih =>
    intro k
    obtain ⟨a, b⟩ := r
    simp only [wtasks, tasks, ih]
    rfl

/-- **C53, what a mixture computes**: longitudes and zenith angles in dask arrays, the first row chunk of the longitudes
being one scan, and latitudes in a numpy array.  The call succeeds, without any warning, and every scan gets the latitudes
of the *first* scan. -/
theorem C53_mixed_value (c : Conv) (n : Nat) (lon satz : DArr α) (lat : Arr2 α)
    (h : ScanInput c n lon.data lat satz.data) (hn : 0 < n) (hwf : lon.WF) (cs : List Nat)
    (hr : lon.rowChunks = c.scanRows :: cs) (junk) :
    ∃ l, c.call junk (.arr none (.dask lon)) (.arr none (.numpy lat)) (.arr none (.dask satz)) = .ok (.dask l) ∧
      ∀ d, ∃ out, l.compute d = .ok out ∧
        out.1.rows = n * c.scanRows * c.factor ∧ out.1.cols = c.outCols ∧
        ∀ r k, r < n * c.scanRows * c.factor → k < c.outCols →
          (out.1.cell r k, out.2.cell r k)
            = Spec.Modis.pixel (c.cfg lon.data.cols) lon.data.cell (fun i j => lat.cell (i % c.scanRows) j) satz.data.cell r k := by
  have hpos : 0 < c.scanRows := by cases c <;> simp [Conv.scanRows]
  have hlf : 0 < (c.cfg lon.data.cols).len * (c.cfg lon.data.cols).f := by
    rw [c.cfg_len, c.cfg_f]; cases c <;> simp [Conv.scanRows, Conv.factor]
  obtain ⟨kk, hk, hkk⟩ : ∃ kk, finePerKm c.fine = .ok kk ∧ 1354 * kk = c.outCols := by
    cases c
    · exact ⟨2, rfl, rfl⟩
    · exact ⟨4, rfl, rfl⟩
    · exact ⟨1, rfl, rfl⟩
    · exact ⟨2, rfl, rfl⟩
    · exact ⟨4, rfl, rfl⟩
  have hrps : rowsPerScan c.coarse = .ok c.scanRows := by cases c <;> rfl
  have h0 : ¬ c.fine = 0 := by cases c <;> simp [Conv.fine]
  have hf : c.coarse / c.fine = c.factor := by cases c <;> rfl
  have hbd : blockdims (n * c.scanRows) (c.scanRows / c.scanRows * c.scanRows)
      = .ok (c.scanRows :: List.replicate (n - 1) c.scanRows) := by
    rw [Nat.div_self hpos, Nat.one_mul]
    unfold blockdims
    rw [if_neg (Nat.mul_ne_zero (by omega) (by omega)), if_neg (by omega), Nat.mul_div_cancel _ hpos]
    simp only [Nat.mul_mod_left, if_true, List.append_nil]
    obtain ⟨m, rfl⟩ : ∃ m, n = m + 1 := ⟨n - 1, by omega⟩
    rfl
  set cl := List.replicate (n - 1) c.scanRows with hcl
  have hsum : (c.scanRows :: cl).sum = n * c.scanRows := blockdims_sum hbd
  have hall : ∀ x ∈ c.scanRows :: cl, x = c.scanRows := by
    intro x hx
    rcases List.mem_cons.mp hx with hx | hx
    · exact hx
    · exact (List.mem_replicate.mp hx).2
  set lon' : DArr α := ⟨lon.data, c.scanRows :: cl, [lon.data.cols]⟩ with hlon'
  set satz' : DArr α := ⟨satz.data, c.scanRows :: cl, [satz.data.cols]⟩ with hsatz'
  have hre : rechunkArgs c.scanRows [mk lon, np lat, mk satz] = .ok [mk lon', np lat, mk satz'] := by
    have hfi : [mk lon, np lat, mk satz].find? Arg.hasNdim = some (mk lon) := rfl
    have hmod : ¬ lon.data.rows % c.scanRows ≠ 0 := by rw [h.lonRows]; simp
    simp only [rechunkArgs, hfi]
    rw [if_neg hmod, goodCol_false hwf, hr]
    simp only [Bool.and_false, Bool.false_and]
    simp only [List.mapM_cons, List.mapM_nil, Arg.rechunk, DArr.rechunkRows, h.lonRows, h.satzRows, hbd, bind, Except.bind]
    rfl
  set func := angleFunc c.coarse c.fine (c.widthArg lon.data.cols) junk with hfunc
  refine ⟨⟨(c.scanRows :: cl).map (· * c.factor), [1354 * kk],
    wtasks func [mk lon', np lat, mk satz'] 0 (blockRanges 0 (c.scanRows :: cl))⟩, ?_, fun d => ?_⟩
  · rw [c.call_eq junk _ _ _ (w := lon.data.cols) rfl]
    have hfi : [(.arr none (.dask lon) : Arg α), .arr none (.numpy lat), .arr none (.dask satz)].find? Arg.hasNdim
      = some (.arr none (.dask lon)) := rfl
    have he : [(.arr none (.dask lon) : Arg α), .arr none (.numpy lat), .arr none (.dask satz)].map Arg.extract
      = [mk lon, np lat, mk satz] := rfl
    have hfi' : [mk lon', np lat, mk satz'].find? Arg.hasNdim = some (.arr none (.dask lon')) := rfl
    simp only [wrapper, hfi, he, hrps, hre, bind, Except.bind, wcallMapBlocks, hfi', if_neg h0, hk, hf]
    rfl
  · obtain ⟨bs, eb, b1, b2, b3, b4⟩ := blocks_ok
      (func := fun k l => match l with
        | [a, b] => func k [np a, np lat, np b]
        | _ => .error .typeError) (args := [lon', satz']) (f := c.factor) (OC := c.outCols) (N := n * c.scanRows)
      (G := fun r k => Spec.Modis.pixel (c.cfg lon.data.cols) lon.data.cell (fun i j => lat.cell (i % c.scanRows) j) satz.data.cell r k)
      (rps := c.scanRows) d (fun x => x = c.scanRows)
      (by
        intro k s m hm hsm
        have hm1 : m = 1 := Nat.eq_of_mul_eq_mul_right hpos (by rw [hm, Nat.one_mul])
        subst hm1
        rw [Nat.add_mul, Nat.one_mul] at hsm
        rw [Nat.one_mul]
        have hslice : ∀ a : Arr2 α, a.rows = n * c.scanRows →
            (a.rowSlice (s * c.scanRows) (s * c.scanRows + c.scanRows)).rows = 1 * c.scanRows := by
          intro a ha
          simp only [Arr2.rowSlice, ha]; omega
        have hlat : (lat.rowSlice 0 c.scanRows).rows = 1 * c.scanRows := by
          simp only [Arr2.rowSlice, h.latRows]; omega
        obtain ⟨out', e', q1, q2⟩ := run_pixel c (n := 1)
          (lon := lon.data.rowSlice (s * c.scanRows) (s * c.scanRows + c.scanRows))
          (lat := lat.rowSlice 0 c.scanRows)
          (satz := satz.data.rowSlice (s * c.scanRows) (s * c.scanRows + c.scanRows))
          ⟨h.width, hslice _ h.lonRows, hlat, hslice _ h.satzRows, h.latCols, h.satzCols⟩ (junk k)
        have hps := fun r cc => pixel_shift hlf lon.data.cell (fun i j => lat.cell (i % c.scanRows) j) satz.data.cell s r cc
        simp only [c.cfg_len, c.cfg_f] at hps
        have hpix : ∀ r cc, r < c.scanRows * c.factor →
            Spec.Modis.pixel (c.cfg lon.data.cols) (fun i j => lon.data.cell (s * c.scanRows + i) j) (lat.rowSlice 0 c.scanRows).cell
              (fun i j => satz.data.cell (s * c.scanRows + i) j) r cc
            = Spec.Modis.pixel (c.cfg lon.data.cols) lon.data.cell (fun i j => lat.cell (i % c.scanRows) j) satz.data.cell
              (s * c.scanRows * c.factor + r) cc := by
          intro r cc hrr
          have hcr := cellRow_lt (c.cfg_geometry h.width) r
          rw [c.cfg_len] at hcr
          have hd : r / (c.scanRows * c.factor) = 0 := Nat.div_eq_of_lt hrr
          have hm : r % (c.scanRows * c.factor) = r := Nat.mod_eq_of_lt hrr
          have m1 : (s * c.scanRows + Spec.Modis.cellRow (c.cfg lon.data.cols) r) % c.scanRows
              = Spec.Modis.cellRow (c.cfg lon.data.cols) r := by
            rw [Nat.add_comm, Nat.add_mul_mod_self_right, Nat.mod_eq_of_lt (by omega)]
          have m2 : (s * c.scanRows + (Spec.Modis.cellRow (c.cfg lon.data.cols) r + 1)) % c.scanRows
              = Spec.Modis.cellRow (c.cfg lon.data.cols) r + 1 := by
            rw [Nat.add_comm, Nat.add_mul_mod_self_right, Nat.mod_eq_of_lt (by omega)]
          rw [← hps]
          simp only [Spec.Modis.pixel, Spec.Modis.scanPixel, Spec.Modis.fineXyz, Spec.Modis.trackScan, Spec.Modis.ties,
            Spec.Modis.tieXyz, Arr2.rowSlice, c.cfg_len, c.cfg_f, hd, hm, Nat.zero_mul, Nat.zero_add, m1, m2]
        have hfun : func k [np (lon.data.rowSlice (s * c.scanRows) (s * c.scanRows + c.scanRows)), np lat,
            np (satz.data.rowSlice (s * c.scanRows) (s * c.scanRows + c.scanRows))] = .ok out' := by
          rw [← e', ← c.interpolate_eq_run, hfunc]
          simp only [angleFunc, Modis.interpolate]
          have hcl : ∀ cfg, interpolateCfg cfg (lon.data.rowSlice (s * c.scanRows) (s * c.scanRows + c.scanRows)) lat
              (satz.data.rowSlice (s * c.scanRows) (s * c.scanRows + c.scanRows)) (junk k)
              = interpolateCfg cfg (lon.data.rowSlice (s * c.scanRows) (s * c.scanRows + c.scanRows))
                (lat.rowSlice 0 c.scanRows)
                (satz.data.rowSlice (s * c.scanRows) (s * c.scanRows + c.scanRows)) (junk k) := fun cfg =>
            interpolateCfg_lat cfg _ _ _ _ (by rw [hslice _ h.satzRows]; omega) _
          simp only [hcl]
          rfl
        rw [Nat.one_mul] at q1 q2
        refine ⟨out', hfun, ⟨q1.rows, q1.cols, fun i j hi hj _ => ?_⟩, ⟨q2.rows, q2.cols, fun i j hi hj _ => ?_⟩⟩
        · rw [q1.cell i j hi hj trivial, ← hpix i j hi]; rfl
        · rw [q2.cell i j hi hj trivial, ← hpix i j hi]; rfl) (c.scanRows :: cl) 0 0 hall (fun x hx => hall x hx ▸ dvd_rfl) ⟨0, by simp⟩ (by omega)
    rw [← wtasks_mixed] at eb
    obtain ⟨_, _, out, e, p1, p2⟩ := computes_of_blocks (l := ⟨(c.scanRows :: cl).map (· * c.factor), [1354 * kk],
      wtasks func [mk lon', np lat, mk satz'] 0 (blockRanges 0 (c.scanRows :: cl))⟩) hsum rfl eb b1 b2 b3 b4
    refine ⟨out, e, p1.rows, p1.cols, fun r k hr hk => ?_⟩
    rw [p1.cell r k hr hk trivial, p2.cell r k hr hk trivial]

example (f g h : Nat → Nat → α) (junk) :=
  C53_mixed_value .km5to1 2 ⟨⟨4, 271, f⟩, [2, 2], [271]⟩ ⟨⟨4, 271, h⟩, [4], [271]⟩ ⟨4, 271, g⟩
    ⟨Or.inr rfl, rfl, rfl, rfl, rfl, rfl⟩ (by omega) ⟨rfl, rfl⟩ [2] rfl junk

end structural

open FP in
/-- **C53, negation (dask beside numpy)**: for every conversion there are two scans of longitudes and zenith angles in dask
arrays, with latitudes in a numpy array, for which the call succeeds and reports latitude 0 where the eager call
(correctly) reports 45. -/
theorem C53_negation_mixed (c : Conv) (junk : Nat → Nat → Nat → Nat → Nat → FP ℝ) :
    ∃ (lon satz : DArr (FP ℝ)) (lat : Arr2 (FP ℝ)) (out : Arr2 (FP ℝ) × Arr2 (FP ℝ)) (l : Lazy (FP ℝ)),
      ScanInput c 2 lon.data lat satz.data ∧
      c.call junk (.arr none (.numpy lon.data)) (.arr none (.numpy lat)) (.arr none (.numpy satz.data)) = .ok (.numpy out) ∧
      c.call junk (.arr none (.dask lon)) (.arr none (.numpy lat)) (.arr none (.dask satz)) = .ok (.dask l) ∧
      ∀ d, ∃ lout, l.compute d = .ok lout ∧
        out.2.cell (c.scanRows * c.factor) 0 = val 45 ∧ lout.2.cell (c.scanRows * c.factor) 0 = val 0 := by
  obtain ⟨w, hw⟩ : ∃ w, c.WidthOk w := by
    cases c
    · exact ⟨1354, rfl⟩
    · exact ⟨1354, rfl⟩
    · exact ⟨270, Or.inl rfl⟩
    · exact ⟨270, Or.inl rfl⟩
    · exact ⟨270, Or.inl rfl⟩
  have hpos : 0 < c.scanRows := by cases c <;> simp [Conv.scanRows]
  have hfpos : 0 < c.scanRows * c.factor := by cases c <;> simp [Conv.scanRows, Conv.factor]
  have hcol : 0 < c.outCols := by cases c <;> simp [Conv.outCols]
  let lon : DArr (FP ℝ) := ⟨⟨2 * c.scanRows, w, fun _ _ => val 0⟩, [c.scanRows, c.scanRows], [w]⟩
  let satz : DArr (FP ℝ) := ⟨⟨2 * c.scanRows, w, fun _ _ => val 30⟩, [c.scanRows, c.scanRows], [w]⟩
  let lat : Arr2 (FP ℝ) := ⟨2 * c.scanRows, w, fun i _ => if i < c.scanRows then val 0 else val 45⟩
  let lat0 : Arr2 (FP ℝ) := ⟨2 * c.scanRows, w, fun _ _ => val 0⟩
  have hin : ScanInput c 2 lon.data lat satz.data := ⟨hw, rfl, rfl, rfl, rfl, rfl⟩
  have hin0 : ScanInput c 2 lon.data lat0 satz.data := ⟨hw, rfl, rfl, rfl, rfl, rfl⟩
  have hwf : lon.WF := ⟨by simp [lon]; omega, by simp [lon]⟩
  have hr : c.scanRows * c.factor < 2 * c.scanRows * c.factor := by rw [Nat.mul_assoc]; omega
  have hnum := C34_coefficients_partial (c.cfg w).perKm (by cases c <;> simp [Conv.cfg]) 30 30
    (by norm_num [abs_le]) (by norm_num [abs_le]) (by norm_num)
  have hcell := (C29_cell_in_scan c w hw (c.scanRows * c.factor) 0)
  rw [Nat.div_self hfpos] at hcell
  have hge : ∀ i, i / c.scanRows = 1 → ¬ i < c.scanRows := by
    intro i hi hlt
    rw [Nat.div_eq_of_lt hlt] at hi
    omega
  obtain ⟨out, e, hout⟩ := C33_constant c 2 lon.data lat satz.data hin (junk 0)
  obtain ⟨out0, e0, hout0⟩ := C33_constant c 2 lon.data lat0 satz.data hin0 (junk 0)
  obtain ⟨out0', e0', p1, p2⟩ := run_pixel c hin0 (junk 0)
  obtain ⟨l, el, hl⟩ := C53_mixed_value c 2 lon satz lat hin (by omega) hwf [c.scanRows] rfl junk
  have heq : out0' = out0 := by rw [e0] at e0'; injection e0' with h; exact h.symm
  have v45 := (hout (c.scanRows * c.factor) 0 0 45 hr hcol (by norm_num) (by norm_num) (by norm_num) (by norm_num)
    (fun i j hi _ => ⟨rfl, if_neg (by
      rcases hi with hi | hi
      · exact hge i (by rw [hi]; exact hcell.1)
      · exact hge i (by rw [hi]; exact hcell.2.1))⟩) hnum).2
  have v0 := (hout0 (c.scanRows * c.factor) 0 0 0 hr hcol (by norm_num) (by norm_num) (by norm_num) (by norm_num)
    (fun i j _ _ => ⟨rfl, rfl⟩) hnum).2
  refine ⟨lon, satz, lat, out, l, hin, by rw [C53_numpy, e]; rfl, el, fun d => ?_⟩
  obtain ⟨lout, elo, _, _, hp⟩ := hl d
  refine ⟨lout, elo, v45, ?_⟩
  have h1 := congrArg Prod.snd (hp (c.scanRows * c.factor) 0 hr hcol)
  have hlat : (fun i j => lat.cell (i % c.scanRows) j) = lat0.cell := by
    funext i j
    exact if_pos (Nat.mod_lt _ hpos)
  rw [hlat] at h1
  rw [← v0, ← heq, p2.cell _ _ hr hcol trivial]
  exact h1

end Verif.Props
