import Verif.Model.ViiLabels
import Verif.Props.ViiGeo
import Mathlib.Data.List.Nodup

/-!
# C95: VII longitudes and latitudes with dimension names and labels
-/

set_option linter.unusedSectionVars false

namespace Verif.Props
open Verif Verif.Interpolator Verif.Vii FP

section C95
variable {α L : Type} [Trig α] [DecidableEq L]

/-- a well-formed labelled array of `n` rows and `c` columns: one label per position, none twice, different names -/
structure LabelledOf (n c : Nat) (d : Labelled α L) : Prop where
  rows : d.arr.rows.length = n
  cols : d.arr.cols = c
  rect : ∀ r ∈ d.arr.rows, r.length = c
  names : d.arr.dims.1 ≠ d.arr.dims.2
  alt : ∀ l, d.alt = some l → l.length = n ∧ l.Nodup
  act : ∀ l, d.act = some l → l.length = c ∧ l.Nodup

/-- position `i` along a dimension of one array and position `k` of the same dimension of another one belong together: they
have the same label, or, without labels on one side, they are the same -/
def SamePlace (a b : Option (List L)) (i k : Nat) : Prop :=
  match a, b with
  | some la, some lb => la[i]? = lb[k]?
  | _, _ => i = k

/-- all labels of the first are labels of the second -/
def Covered (a b : Option (List L)) : Prop := ∀ la lb, a = some la → b = some lb → ∀ x ∈ la, x ∈ lb

/-- no two different lists of labels -/
def NoConflict (a b : Option (List L)) : Prop := ∀ la lb, a = some la → b = some lb → la = lb

/-- the interpolation in cartesian coordinates, by position -/
def sphereWay (lon lat : DataArray α) (T F : Nat) (zThr : α) : Except Err (DataArray α × DataArray α) :=
  match tiePointsInterpolation [cartesian (·.1) lon lat, cartesian (·.2.1) lon lat, cartesian (·.2.2) lon lat] T F with
  | .ok [x, y, z] => .ok (geodetic (·.1) zThr x y z, geodetic (·.2) zThr x y z)
  | .ok _ => .error .valueError
  | .error e => .error e

theorem sphereWay_eq (lon lat : DataArray α) (T F : Nat) (t z : α) (hs : lon.shape = lat.shape) (h : toCart lon lat t = true) :
    tiePointsGeoInterpolation lon lat T F t z = sphereWay lon lat T F z := by
  unfold tiePointsGeoInterpolation sphereWay
  rw [if_neg (by simpa using hs), if_pos h]
  rfl

theorem take_all (d : DataArray α) (h : ∀ r ∈ d.rows, r.length = d.cols) :
    d.take (List.range d.rows.length) (List.range d.cols) = d := by
  obtain ⟨dims, cols, rows⟩ := d
  unfold DataArray.take DataArray.elem
  congr 1
  · simp
  · apply List.ext_getElem (by simp)
    intro i h1 h2
    simp only [List.getElem_map, List.getElem_range]
    have hr : rows[i].length = cols := h _ (List.getElem_mem h2)
    have e : rows.getD i [] = rows[i] := by simp [h2]
    rw [e]
    apply List.ext_getElem (by simp [hr])
    intro j h3 h4
    simp only [List.getElem_map, List.getElem_range]
    simp [h4]

theorem zCoords_eq (lon lat : DataArray α) (hd : lon.dims = lat.dims) (hc : lon.cols = lat.cols)
    (hr : lon.rows.length = lat.rows.length) (h1 : ∀ r ∈ lon.rows, r.length = lat.cols) (h2 : ∀ r ∈ lat.rows, r.length = lat.cols) :
    cartesian (·.2.2) lon lat = zCoords lat := by
  obtain ⟨d1, c1, r1⟩ := lon
  obtain ⟨d2, c2, r2⟩ := lat
  simp only at hd hc hr h1 h2
  subst hd hc
  unfold cartesian zCoords
  congr 1
  apply List.ext_getElem (by simp [hr])
  intro i k1 k2
  simp only [List.length_zipWith, List.length_map] at k1 k2
  have e1 : r1[i].length = c1 := h1 _ (List.getElem_mem (by omega))
  have e2 : r2[i].length = c1 := h2 _ (List.getElem_mem (by omega))
  simp only [List.getElem_zipWith, List.getElem_map]
  apply List.ext_getElem (by simp [e1, e2])
  intro j _ _
  simp [Geo.lonlat2xyz]

/-- alignment of labels that are all found -/
theorem joinDim_covered (a b : Option (List L)) (n : Nat) (ha : ∀ l, a = some l → l.length = n ∧ l.Nodup)
    (hb : ∀ l, b = some l → l.length = n ∧ l.Nodup) (hc : Covered a b) :
    ∃ f : Nat → Nat, joinDim a b n n = some (List.range n, (List.range n).map f) ∧
      ∀ i < n, f i < n ∧ ∀ k < n, SamePlace a b i k ↔ k = f i := by
  match a, b with
  | some la, some lb =>
    obtain ⟨la1, la2⟩ := ha la rfl
    obtain ⟨lb1, lb2⟩ := hb lb rfl
    have hin := hc la lb rfl rfl
    by_cases he : la = lb
    · subst he
      refine ⟨id, by simp [joinDim], fun i hi => ⟨hi, fun k hk => ?_⟩⟩
      unfold SamePlace
      simp only [id]
      rw [List.getElem?_eq_getElem (by omega : i < la.length), List.getElem?_eq_getElem (by omega : k < la.length)]
      rw [Option.some_inj, la2.getElem_inj_iff]
      exact eq_comm
    · have hfil : la.filter (fun x => decide (x ∈ lb)) = la := by
        rw [List.filter_eq_self]; simpa using hin
      refine ⟨fun i => if h : i < la.length then lb.idxOf la[i] else 0, ?_, fun i hi => ?_⟩
      · simp only [joinDim]
        rw [if_neg he, if_pos ⟨la2, lb2⟩, hfil]
        congr 2
        · apply List.ext_getElem (by simp [la1])
          intro i h1 h2
          simp [la2.idxOf_getElem]
        · apply List.ext_getElem (by simp [la1])
          intro i h1 h2
          simp only [List.length_map] at h1
          simp [h1]
      · have hi' : i < la.length := by omega
        simp only [hi', dif_pos]
        have hmem := hin _ (List.getElem_mem hi')
        have hlt := List.idxOf_lt_length_of_mem hmem
        refine ⟨by omega, fun k hk => ?_⟩
        unfold SamePlace
        simp only
        have hk' : k < lb.length := by omega
        rw [List.getElem?_eq_getElem hi', List.getElem?_eq_getElem hk', Option.some_inj]
        constructor
        · intro h; rw [h, lb2.idxOf_getElem]
        · intro h; subst h; rw [List.getElem_idxOf]
  | none, _ => exact ⟨id, by simp [joinDim], fun i hi => ⟨hi, fun k _ => by unfold SamePlace; exact eq_comm⟩⟩
  | some _, none => exact ⟨id, by simp [joinDim], fun i hi => ⟨hi, fun k _ => by unfold SamePlace; exact eq_comm⟩⟩

/-- the elements taken -/
theorem elem_take (d : DataArray α) (is js : List Nat) (i j : Nat) (hi : i < is.length) (hj : j < js.length) :
    (d.take is js).elem i j = d.elem (is[i]) (js[j]) := by
  unfold DataArray.take
  simp [DataArray.elem, hi, hj]

/-- what remains once the second array has the names of the first -/
theorem through_join (n c : Nat) (lon lat : Labelled α L) (hlon : LabelledOf n c lon) (hlat : LabelledOf n c lat)
    (hd : lon.arr.dims = lat.arr.dims) (h1 : Covered lat.alt lon.alt) (h2 : Covered lat.act lon.act) :
    ∃ m : DataArray α, m.dims = lat.arr.dims ∧ m.shape = (n, c) ∧ (∀ r ∈ m.rows, r.length = c) ∧
      (∀ i < n, ∀ j < c, ∀ i' < n, ∀ j' < c, SamePlace lat.alt lon.alt i i' → SamePlace lat.act lon.act j j' →
        m.elem i j = lon.arr.elem i' j') ∧
      align lat lon = some (lat.arr, m) := by
  obtain ⟨f, hf, hf'⟩ := joinDim_covered lat.alt lon.alt n hlat.alt hlon.alt h1
  obtain ⟨g, hg, hg'⟩ := joinDim_covered lat.act lon.act c hlat.act hlon.act h2
  refine ⟨lon.arr.take ((List.range n).map f) ((List.range c).map g), hd, by simp [DataArray.shape, DataArray.take], ?_, ?_, ?_⟩
  · intro r hr
    simp only [DataArray.take, List.mem_map] at hr
    obtain ⟨_, _, rfl⟩ := hr
    simp
  · intro i hi j hj i' hi' j' hj' s1 s2
    rw [elem_take _ _ _ _ _ (by simpa using hi) (by simpa using hj)]
    rw [((hf' i hi).2 i' hi').1 s1, ((hg' j hj).2 j' hj').1 s2]
    simp
  · unfold align
    rw [if_pos hd]
    simp only [Option.bind_eq_bind, Option.bind_some, hlon.rows, hlon.cols, hlat.rows, hlat.cols, hf, hg]
    have := take_all lat.arr (by rw [hlat.cols]; exact hlat.rect)
    rw [hlat.rows, hlat.cols] at this
    rw [this]

/-- the run in cartesian coordinates, given the alignment -/
theorem geoLabelled_cart (n c : Nat) (lon lat : Labelled α L) (hlon : LabelledOf n c lon) (hlat : LabelledOf n c lat)
    (t z : α) (T F : Nat) (hcart : toCart lon.arr lat.arr t = true) (m : DataArray α) (hm1 : m.dims = lat.arr.dims)
    (hm2 : m.shape = (n, c)) (hm3 : ∀ r ∈ m.rows, r.length = c) (ha : align lat lon = some (lat.arr, m)) :
    geoLabelled lon lat T F t z = sphereWay m lat.arr T F z := by
  unfold DataArray.shape at hm2
  obtain ⟨e1, e2⟩ := Prod.mk.inj hm2
  unfold geoLabelled
  rw [if_neg (by simp [DataArray.shape, hlon.rows, hlon.cols, hlat.rows, hlat.cols]), if_pos hcart, ha]
  simp only
  rw [← zCoords_eq m lat.arr hm1 (by rw [e2, hlat.cols]) (by rw [e1, hlat.rows]) (by rw [hlat.cols]; exact hm3)
    (by rw [hlat.cols]; exact hlat.rect)]
  rfl

/-- **C95 (same names)**: arrays with the same names, whose labels all agree or are missing on one side, are matched by
position, in degrees and in cartesian coordinates: the result is that of the arrays without labels. -/
theorem C95_position (n c : Nat) (lon lat : Labelled α L) (hlon : LabelledOf n c lon) (hlat : LabelledOf n c lat)
    (hd : lon.arr.dims = lat.arr.dims) (h1 : NoConflict lat.alt lon.alt) (h2 : NoConflict lat.act lon.act) (T F : Nat) (t z : α) :
    geoLabelled lon lat T F t z = tiePointsGeoInterpolation lon.arr lat.arr T F t z := by
  have hs : lon.arr.shape = lat.arr.shape := by simp [DataArray.shape, hlon.rows, hlon.cols, hlat.rows, hlat.cols]
  by_cases hcart : toCart lon.arr lat.arr t = true
  · rw [sphereWay_eq _ _ _ _ _ _ hs hcart]
    have j1 : joinDim lat.alt lon.alt n n = some (List.range n, List.range n) := by
      unfold joinDim
      split
      · rename_i la lb ea eb
        rw [if_pos (h1 la lb ea eb)]
      · rw [if_pos rfl]
    have j2 : joinDim lat.act lon.act c c = some (List.range c, List.range c) := by
      unfold joinDim
      split
      · rename_i la lb ea eb
        rw [if_pos (h2 la lb ea eb)]
      · rw [if_pos rfl]
    have k1 := take_all lat.arr (by rw [hlat.cols]; exact hlat.rect)
    have k2 := take_all lon.arr (by rw [hlon.cols]; exact hlon.rect)
    rw [hlat.rows, hlat.cols] at k1
    rw [hlon.rows, hlon.cols] at k2
    refine geoLabelled_cart n c lon lat hlon hlat t z T F hcart lon.arr hd
      (by simp [DataArray.shape, hlon.rows, hlon.cols]) hlon.rect ?_
    unfold align
    rw [if_pos hd]
    simp only [Option.bind_eq_bind, Option.bind_some, hlon.rows, hlon.cols, hlat.rows, hlat.cols, j1, j2, k1, k2]
  · unfold geoLabelled tiePointsGeoInterpolation
    rw [if_neg hcart, if_neg hcart]
    rfl

/-- **C95 (degrees)**: interpolated in degrees, longitudes and latitudes are matched by position whatever their labels; with
different names they are refused. -/
theorem C95_degrees (lon lat : Labelled α L) (T F : Nat) (t z : α) (hcart : ¬ toCart lon.arr lat.arr t = true) :
    geoLabelled lon lat T F t z = tiePointsGeoInterpolation lon.arr lat.arr T F t z ∧
      (1 ≤ T → 1 ≤ F → lon.arr.dims ≠ lat.arr.dims → geoLabelled lon lat T F t z = .error .valueError) := by
  have h : geoLabelled lon lat T F t z = tiePointsGeoInterpolation lon.arr lat.arr T F t z := by
    unfold geoLabelled tiePointsGeoInterpolation
    rw [if_neg hcart, if_neg hcart]
    rfl
  refine ⟨h, fun hT hF hd => ?_⟩
  rw [h]
  unfold tiePointsGeoInterpolation
  rw [if_neg hcart]
  split
  · rfl
  rw [C40_inconsistent T F hT hF lon.arr [lat.arr] lat.arr (by simp) (Or.inr (Ne.symm hd))]

/-- **C95 (cartesian, same names)**: in cartesian coordinates longitudes and latitudes are matched by their labels. -/
theorem C95_labels (n c : Nat) (lon lat : Labelled α L) (hlon : LabelledOf n c lon) (hlat : LabelledOf n c lat)
    (hd : lon.arr.dims = lat.arr.dims) (h1 : Covered lat.alt lon.alt) (h2 : Covered lat.act lon.act) (T F : Nat) (t z : α)
    (hcart : toCart lon.arr lat.arr t = true) :
    ∃ m : DataArray α, m.dims = lat.arr.dims ∧ m.shape = (n, c) ∧ (∀ r ∈ m.rows, r.length = c) ∧
      (∀ i < n, ∀ j < c, ∀ i' < n, ∀ j' < c, SamePlace lat.alt lon.alt i i' → SamePlace lat.act lon.act j j' →
        m.elem i j = lon.arr.elem i' j') ∧
      geoLabelled lon lat T F t z = sphereWay m lat.arr T F z := by
  obtain ⟨m, m1, m2, m3, m4, m5⟩ := through_join n c lon lat hlon hlat hd h1 h2
  exact ⟨m, m1, m2, m3, m4, geoLabelled_cart n c lon lat hlon hlat t z T F hcart m m1 m2 m3 m5⟩

theorem elem_transposed (d : DataArray α) (i j : Nat) (hi : i < d.cols) (hj : j < d.rows.length) :
    d.transposed.elem i j = d.elem j i := by
  unfold DataArray.transposed
  simp [DataArray.elem, hi, hj]

theorem labelledOf_transposed (n c : Nat) (d : Labelled α L) (h : LabelledOf n c d) : LabelledOf c n d.transposed where
  rows := by simp [Labelled.transposed, DataArray.transposed, h.cols]
  cols := by simp [Labelled.transposed, DataArray.transposed, h.rows]
  rect := by
    intro r hr
    simp only [Labelled.transposed, DataArray.transposed, List.mem_map] at hr
    obtain ⟨_, _, rfl⟩ := hr
    simp [h.rows]
  names := by simpa [Labelled.transposed, DataArray.transposed] using h.names.symm
  alt := h.act
  act := h.alt

theorem swap_ne (d : String × String) (h : d.1 ≠ d.2) : d.swap ≠ d := by
  intro e
  exact h (congrArg Prod.fst e).symm

theorem align_swapped (lon lat : Labelled α L) (hd : lon.arr.dims = lat.arr.dims.swap) (hn : lat.arr.dims.1 ≠ lat.arr.dims.2) :
    align lat lon = align lat lon.transposed := by
  have e : lon.transposed.arr.dims = lat.arr.dims := by
    simp [Labelled.transposed, DataArray.transposed, hd]
  unfold align
  rw [if_neg (by rw [hd]; exact swap_ne _ hn), if_pos hd, if_pos e]

/-- **C95 (cartesian, exchanged names)**: in cartesian coordinates square arrays with the same names in the other order are
accepted, and matched by name and label: the longitudes are transposed. -/
theorem C95_exchanged (n : Nat) (lon lat : Labelled α L) (hlon : LabelledOf n n lon) (hlat : LabelledOf n n lat)
    (hd : lon.arr.dims = lat.arr.dims.swap) (h1 : Covered lat.alt lon.act) (h2 : Covered lat.act lon.alt) (T F : Nat) (t z : α)
    (hcart : toCart lon.arr lat.arr t = true) :
    ∃ m : DataArray α, m.dims = lat.arr.dims ∧ m.shape = (n, n) ∧ (∀ r ∈ m.rows, r.length = n) ∧
      (∀ i < n, ∀ j < n, ∀ i' < n, ∀ j' < n, SamePlace lat.alt lon.act i i' → SamePlace lat.act lon.alt j j' →
        m.elem i j = lon.arr.elem j' i') ∧
      geoLabelled lon lat T F t z = sphereWay m lat.arr T F z := by
  obtain ⟨m, m1, m2, m3, m4, m5⟩ := through_join n n lon.transposed lat (labelledOf_transposed n n lon hlon) hlat
    (by simp [Labelled.transposed, DataArray.transposed, hd]) h1 h2
  refine ⟨m, m1, m2, m3, fun i hi j hj i' hi' j' hj' s1 s2 => ?_, ?_⟩
  · rw [m4 i hi j hj i' hi' j' hj' s1 s2]
    exact elem_transposed _ _ _ (by rw [hlon.cols]; exact hi') (by rw [hlon.rows]; exact hj')
  · rw [← align_swapped lon lat hd hlat.names] at m5
    exact geoLabelled_cart n n lon lat hlon hlat t z T F hcart m m1 m2 m3 m5

/-- sizes after alignment -/
theorem joinDim_len (a b : Option (List L)) (n m : Nat) (ha : ∀ l, a = some l → l.length = n ∧ l.Nodup)
    (hb : ∀ l, b = some l → l.length = m ∧ l.Nodup) (p : List Nat × List Nat) (hp : joinDim a b n m = some p) :
    p.1.length = p.2.length ∧ p.2.length ≤ n ∧ p.2.length ≤ m ∧
      ∀ la lb x, a = some la → b = some lb → x ∈ la → x ∉ lb → p.2.length < n := by
  match a, b with
  | some la, some lb =>
    obtain ⟨la1, la2⟩ := ha la rfl
    obtain ⟨lb1, lb2⟩ := hb lb rfl
    simp only [joinDim] at hp
    by_cases he : la = lb
    · rw [if_pos he, Option.some_inj] at hp
      subst hp he
      refine ⟨by simp; omega, by simp; omega, by simp, ?_⟩
      intro la' lb' x h1 h2 h3 h4
      cases h1; cases h2
      exact absurd h3 h4
    · rw [if_neg he, if_pos ⟨la2, lb2⟩, Option.some_inj] at hp
      subst hp
      have hle : (la.filter (fun x => decide (x ∈ lb))).length ≤ la.length := List.length_filter_le _ _
      have hle' : (la.filter (fun x => decide (x ∈ lb))).length ≤ lb.length :=
        ((la2.filter _).subperm (fun x hx => by simpa using (List.mem_filter.1 hx).2)).length_le
      refine ⟨by simp, by simp only [List.length_map]; omega, by simp only [List.length_map]; omega, ?_⟩
      intro la' lb' x h1 h2 h3 h4
      cases h1; cases h2
      simp only [List.length_map]
      rw [← la1, List.length_filter_lt_length_iff_exists]
      exact ⟨x, h3, by simpa using h4⟩
  | none, _ =>
    simp only [joinDim] at hp
    split at hp
    · rename_i h
      rw [Option.some_inj] at hp
      subst hp h
      simp
    · exact absurd hp (by simp)
  | some _, none =>
    simp only [joinDim] at hp
    split at hp
    · rename_i h
      rw [Option.some_inj] at hp
      subst hp h
      simp
    · exact absurd hp (by simp)

/-- sizes of aligned arrays -/
theorem align_len (n c n' c' : Nat) (lon lat : Labelled α L) (hlon : LabelledOf n' c' lon) (hlat : LabelledOf n c lat)
    (hd : lon.arr.dims = lat.arr.dims) (p : DataArray α × DataArray α) (hp : align lat lon = some p) :
    p.1.rows.length = p.2.rows.length ∧ p.2.shape.1 ≤ n' ∧ p.2.shape.2 ≤ c' ∧
      (∀ la lb x, lat.alt = some la → lon.alt = some lb → x ∈ la → x ∉ lb → p.2.shape.1 < n) ∧
      (∀ la lb x, lat.act = some la → lon.act = some lb → x ∈ la → x ∉ lb → p.2.shape.2 < c) := by
  unfold align at hp
  rw [if_pos hd] at hp
  simp only [Option.bind_eq_bind, Option.bind_some, hlon.rows, hlon.cols, hlat.rows, hlat.cols] at hp
  cases h1 : joinDim lat.alt lon.alt n n' with
  | none => rw [h1] at hp; exact absurd hp (by simp)
  | some p1 =>
    cases h2 : joinDim lat.act lon.act c c' with
    | none => rw [h1, h2] at hp; exact absurd hp (by simp)
    | some p2 =>
      rw [h1, h2] at hp
      simp only [Option.bind_some, Option.some_inj] at hp
      subst hp
      obtain ⟨a1, _, a3, a4⟩ := joinDim_len _ _ _ _ hlat.alt hlon.alt _ h1
      obtain ⟨b1, _, b3, b4⟩ := joinDim_len _ _ _ _ hlat.act hlon.act _ h2
      simp only [DataArray.take, DataArray.shape, List.length_map]
      exact ⟨a1, a3, b3, a4, b4⟩

theorem cartesian_shape (f : α × α × α → α) (lon lat : DataArray α) (h : lon.rows.length = lat.rows.length) :
    (cartesian f lon lat).shape = lon.shape := by
  simp [cartesian, DataArray.shape, h]

/-- aligned arrays of another shape than the latitudes -/
theorem geoLabelled_refused (lon lat : Labelled α L) (T F : Nat) (hT : 1 ≤ T) (hF : 1 ≤ F) (t z : α)
    (hcart : toCart lon.arr lat.arr t = true)
    (h : ∀ p, align lat lon = some p → p.1.rows.length = p.2.rows.length ∧ p.2.shape ≠ lat.arr.shape) :
    geoLabelled lon lat T F t z = .error .valueError := by
  unfold geoLabelled
  rw [if_pos hcart]
  split
  · rfl
  cases ha : align lat lon with
  | none => rfl
  | some p =>
    obtain ⟨la, lo⟩ := p
    obtain ⟨e, hne⟩ := h _ ha
    simp only at e hne ⊢
    rw [C40_inconsistent T F hT hF _ _ (zCoords lat.arr) (by simp) (Or.inl ?_)]
    rw [cartesian_shape _ _ _ e.symm]
    intro hcon
    apply hne
    rw [← hcon]
    simp [zCoords, DataArray.shape]

/-- **C95 (labels not found)**: in cartesian coordinates arrays with the same names are refused when a label of the latitudes
is not a label of the longitudes. -/
theorem C95_missing (n c : Nat) (lon lat : Labelled α L) (hlon : LabelledOf n c lon) (hlat : LabelledOf n c lat)
    (hd : lon.arr.dims = lat.arr.dims) (T F : Nat) (hT : 1 ≤ T) (hF : 1 ≤ F) (t z : α)
    (hcart : toCart lon.arr lat.arr t = true)
    (h : (∃ la lb x, lat.alt = some la ∧ lon.alt = some lb ∧ x ∈ la ∧ x ∉ lb) ∨
      ∃ la lb x, lat.act = some la ∧ lon.act = some lb ∧ x ∈ la ∧ x ∉ lb) :
    geoLabelled lon lat T F t z = .error .valueError := by
  refine geoLabelled_refused lon lat T F hT hF t z hcart ?_
  intro p hp
  obtain ⟨e, _, _, e1, e2⟩ := align_len n c n c lon lat hlon hlat hd p hp
  refine ⟨e, fun hs => ?_⟩
  rw [hs] at e1 e2
  simp only [DataArray.shape, hlat.rows, hlat.cols] at e1 e2
  rcases h with ⟨la, lb, x, h1, h2, h3, h4⟩ | ⟨la, lb, x, h1, h2, h3, h4⟩
  · exact lt_irrefl _ (e1 la lb x h1 h2 h3 h4)
  · exact lt_irrefl _ (e2 la lb x h1 h2 h3 h4)

/-- **C95 (names)**: arrays with other names, and arrays that are not square with the same names in the other order, are
refused in degrees and in cartesian coordinates. -/
theorem C95_names (n c : Nat) (lon lat : Labelled α L) (hlon : LabelledOf n c lon) (hlat : LabelledOf n c lat)
    (hd : lon.arr.dims ≠ lat.arr.dims) (hsq : lon.arr.dims = lat.arr.dims.swap → n ≠ c) (T F : Nat) (hT : 1 ≤ T) (hF : 1 ≤ F)
    (t z : α) : geoLabelled lon lat T F t z = .error .valueError := by
  by_cases hcart : toCart lon.arr lat.arr t = true
  · refine geoLabelled_refused lon lat T F hT hF t z hcart ?_
    intro p hp
    by_cases hsw : lon.arr.dims = lat.arr.dims.swap
    · rw [align_swapped lon lat hsw hlat.names] at hp
      obtain ⟨e, e1, e2, _, _⟩ := align_len n c c n lon.transposed lat (labelledOf_transposed n c lon hlon) hlat
        (by simp [Labelled.transposed, DataArray.transposed, hsw]) p hp
      refine ⟨e, fun hs => ?_⟩
      rw [hs] at e1 e2
      simp only [DataArray.shape, hlat.rows, hlat.cols] at e1 e2
      exact hsq hsw (le_antisymm e1 e2)
    · unfold align at hp
      rw [if_neg hd, if_neg hsw] at hp
      exact absurd hp (by simp)
  · exact (C95_degrees lon lat T F t z hcart).2 hT hF hd

end C95

section Real

/-- an array of numbers is given by its elements -/
theorem eq_numArray (m : DataArray (FP ℝ)) (dims : String × String) (n c : Nat) (V : Nat → Nat → ℝ) (h1 : m.dims = dims)
    (h2 : m.shape = (n, c)) (h3 : ∀ r ∈ m.rows, r.length = c) (h4 : ∀ i < n, ∀ j < c, m.elem i j = val (V i j)) :
    m = numArray dims n c V := by
  obtain ⟨d, k, rows⟩ := m
  simp only [DataArray.shape, Prod.mk.injEq] at h1 h2 h3
  obtain ⟨rfl, rfl⟩ := h2
  subst h1
  unfold numArray
  congr 1
  apply List.ext_getElem (by simp)
  intro i k1 k2
  have hr : rows[i].length = k := h3 _ (List.getElem_mem k1)
  simp only [List.getElem_map, List.getElem_range]
  apply List.ext_getElem (by simp [hr])
  intro j l1 l2
  have := h4 i k1 j (by omega)
  simp only [DataArray.elem] at this
  simp only [List.getElem_map, List.getElem_range]
  rw [← this]
  simp [k1, l1]

theorem labelledOf_num {L : Type} (dims : String × String) (hn : dims.1 ≠ dims.2) (n c : Nat) (V : Nat → Nat → ℝ) (a b : Option (List L))
    (ha : ∀ l, a = some l → l.length = n ∧ l.Nodup) (hb : ∀ l, b = some l → l.length = c ∧ l.Nodup) :
    LabelledOf n c (⟨numArray dims n c V, a, b⟩ : Labelled (FP ℝ) L) where
  rows := by simp [numArray]
  cols := rfl
  rect := by simp [numArray]
  names := hn
  alt := ha
  act := hb

theorem elem_num (dims : String × String) (n c : Nat) (V : Nat → Nat → ℝ) (i j : Nat) (hi : i < n) (hj : j < c) :
    (numArray dims n c V).elem i j = val (V i j) := by
  simp [numArray, DataArray.elem, hi, hj]

/-- arrays interpolated in cartesian coordinates: a latitude above the threshold or longitudes more than 180 degrees apart -/
def FarApart (n c : Nat) (lon lat : Nat → Nat → ℝ) (thr : ℝ) : Prop :=
  (∃ i < n, ∃ j < c, thr < |lat i j|) ∨ ∃ i < n, ∃ j < c, ∃ i' < n, ∃ j' < c, 180 < lon i j - lon i' j'

theorem toCart_iff (d1 d2 : String × String) (n c : Nat) (lon lat : Nat → Nat → ℝ) (thr : ℝ) :
    toCart (numArray d1 n c lon) (numArray d2 n c lat) (val thr) = true ↔ FarApart n c lon lat thr := by
  rw [C42_choice]
  unfold FarApart
  constructor
  · intro h
    by_contra hcon
    push Not at hcon
    refine h ⟨fun v hv => ?_, fun v w hv hw => ?_⟩
    · obtain ⟨i, hi, j, hj, rfl⟩ := (mem_numArray _ _ _ _ _).1 hv
      exact hcon.1 i hi j hj
    · obtain ⟨i, hi, j, hj, rfl⟩ := (mem_numArray _ _ _ _ _).1 hv
      obtain ⟨i', hi', j', hj', rfl⟩ := (mem_numArray _ _ _ _ _).1 hw
      exact hcon.2 i hi j hj i' hi' j' hj'
  · rintro h ⟨h1, h2⟩
    rcases h with ⟨i, hi, j, hj, h⟩ | ⟨i, hi, j, hj, i', hi', j', hj', h⟩
    · exact absurd (h1 _ ((mem_numArray _ _ _ _ _).2 ⟨i, hi, j, hj, rfl⟩)) (not_le.2 h)
    · exact absurd (h2 _ _ ((mem_numArray _ _ _ _ _).2 ⟨i, hi, j, hj, rfl⟩)
        ((mem_numArray _ _ _ _ _).2 ⟨i', hi', j', hj', rfl⟩)) (not_le.2 h)

open Classical in
/-- **C95 (tie points)**: numbers with the same names; row labels `la` of the latitudes, the same labels in the order `lb` of
the longitudes.  In degrees the pixel at a tie point has the longitude at the same position; in cartesian coordinates it has
the longitude with the same label. -/
theorem C95_tie_points {L : Type} [DecidableEq L] (N T F c : Nat) (hN : 1 ≤ N) (hT : 2 ≤ T) (hF : 1 ≤ F) (hc : 2 ≤ c)
    (dims : String × String) (hn : dims.1 ≠ dims.2) (lon lat : Nat → Nat → ℝ) (thr zthr : ℝ) (la lb : List L)
    (h1 : la.length = N * T) (h2 : lb.length = N * T) (h3 : la.Nodup) (h4 : lb.Nodup) (h5 : ∀ x ∈ la, x ∈ lb) :
    ∃ lo le, geoLabelled (⟨numArray dims (N * T) c lon, some lb, none⟩ : Labelled (FP ℝ) L)
        ⟨numArray dims (N * T) c lat, some la, none⟩ T F (val thr) (val zthr) = .ok (lo, le) ∧
      ∀ j < N, ∀ k, k + 1 < T → ∀ l, l + 1 < c → ∀ r < N * T,
        (if FarApart (N * T) c lon lat thr then lb[r]? = la[j * T + k]? else r = j * T + k) →
        -180 < lon r l → lon r l < 180 → -90 < lat (j * T + k) l → lat (j * T + k) l < 90 →
        lo.at (j * ((T - 1) * F) + k * F) (l * F) = val (lon r l) ∧
        le.at (j * ((T - 1) * F) + k * F) (l * F) = val (lat (j * T + k) l) := by
  have wlon := labelledOf_num dims hn (N * T) c lon (some lb) none (by rintro l ⟨⟩; exact ⟨h2, h4⟩) (by simp)
  have wlat := labelledOf_num dims hn (N * T) c lat (some la) none (by rintro l ⟨⟩; exact ⟨h1, h3⟩) (by simp)
  have cov : Covered (some la) (some lb) := by rintro _ _ ⟨⟩ ⟨⟩; exact h5
  have h6 : ∀ x ∈ lb, x ∈ la := fun x hx => ((h3.subperm h5).perm_of_length_le (by omega)).mem_iff.2 hx
  have perm : ∀ i < N * T, ∃ r < N * T, lb[r]? = la[i]? := by
    intro i hi
    have hi' : i < la.length := by omega
    have hlt := List.idxOf_lt_length_of_mem (h5 _ (List.getElem_mem hi'))
    refine ⟨lb.idxOf la[i], by omega, ?_⟩
    rw [List.getElem?_eq_getElem hlt, List.getElem?_eq_getElem hi', List.getElem_idxOf]
  choose! s hs hs' using perm
  have uniq : ∀ i < N * T, ∀ r < N * T, lb[r]? = la[i]? → s i = r := by
    intro i hi r hr h
    have := hs' i hi
    rw [← h] at this
    have a1 : s i < lb.length := by rw [h2]; exact hs _ hi
    have a2 : r < lb.length := by omega
    rw [List.getElem?_eq_getElem a1, List.getElem?_eq_getElem a2, Option.some_inj, h4.getElem_inj_iff] at this
    exact this
  have onto : ∀ r < N * T, ∃ i < N * T, s i = r := by
    intro r hr
    have hr' : r < lb.length := by omega
    have hlt := List.idxOf_lt_length_of_mem (h6 _ (List.getElem_mem hr'))
    refine ⟨la.idxOf lb[r], by omega, uniq _ (by omega) r hr ?_⟩
    rw [List.getElem?_eq_getElem hlt, List.getElem?_eq_getElem hr', List.getElem_idxOf]
  by_cases hfar : FarApart (N * T) c lon lat thr
  · have hcart := (toCart_iff dims dims (N * T) c lon lat thr).2 hfar
    obtain ⟨m, m1, m2, m3, m4, m5⟩ := C95_labels (N * T) c _ _ wlon wlat rfl cov (by intro _ _ h; exact absurd h (by simp)) T F (val thr)
      (val zthr) hcart
    have hm : m = numArray dims (N * T) c (fun i j => lon (s i) j) := by
      refine eq_numArray m _ _ _ _ m1 m2 m3 (fun i hi j hj => ?_)
      rw [m4 i hi j hj (s i) (hs i hi) j hj (by simpa [SamePlace] using (hs' i hi).symm) (by simp [SamePlace])]
      exact elem_num _ _ _ _ _ _ (hs i hi) hj
    have hfar' : FarApart (N * T) c (fun i j => lon (s i) j) lat thr := by
      rcases hfar with h | ⟨i, hi, j, hj, i', hi', j', hj', h⟩
      · exact Or.inl h
      · obtain ⟨k, hk, rfl⟩ := onto i hi
        obtain ⟨k', hk', rfl⟩ := onto i' hi'
        exact Or.inr ⟨k, hk, j, hj, k', hk', j', hj', h⟩
    obtain ⟨lo, le, e1, e2⟩ := C42_tie_points N T F c hN hT hF hc dims (fun i j => lon (s i) j) lat thr zthr
    rw [sphereWay_eq _ _ _ _ _ _ (by simp [numArray, DataArray.shape]) ((toCart_iff _ _ _ _ _ _ _).2 hfar')] at e1
    refine ⟨lo, le, by rw [m5, hm]; exact e1, ?_⟩
    intro j hj k hk l hl r hr hcond b1 b2 b3 b4
    rw [if_pos hfar] at hcond
    have hjk : j * T + k < N * T := by
      calc j * T + k < j * T + T := by omega
        _ = (j + 1) * T := by ring
        _ ≤ N * T := Nat.mul_le_mul_right _ hj
    have := e2 j hj k hk l hl
    simp only [uniq _ hjk r hr hcond] at this
    exact this b1 b2 b3 b4
  · have hcart := fun h => hfar ((toCart_iff dims dims (N * T) c lon lat thr).1 h)
    have hd := (C95_degrees (⟨numArray dims (N * T) c lon, some lb, none⟩ : Labelled (FP ℝ) L)
        ⟨numArray dims (N * T) c lat, some la, none⟩ T F (val thr) (val zthr) hcart).1
    obtain ⟨lo, le, e1, e2⟩ := C42_tie_points N T F c hN hT hF hc dims lon lat thr zthr
    refine ⟨lo, le, by rw [hd]; exact e1, ?_⟩
    intro j hj k hk l hl r hr hcond b1 b2 b3 b4
    rw [if_neg hfar] at hcond
    subst hcond
    exact e2 j hj k hk l hl b1 b2 b3 b4

/-- longitudes that grow by ten degrees per row -/
def rowLon : Nat → Nat → ℝ := fun i _ => 10 * i

theorem rowLon_near : ¬ FarApart 2 2 rowLon (fun _ _ => 0) 60 := by
  rintro (⟨i, _, j, _, h⟩ | ⟨i, hi, j, _, i', hi', j', _, h⟩)
  · norm_num at h
  · have : (i : ℝ) ≤ 1 := by exact_mod_cast (by omega : i ≤ 1)
    have : (0 : ℝ) ≤ i' := by positivity
    unfold rowLon at h
    linarith

theorem rowLon_far (lon : Nat → Nat → ℝ) : FarApart 2 2 lon (fun _ _ => 61) 60 :=
  Or.inl ⟨0, by omega, 0, by omega, by norm_num⟩

/-- **C95 (negation, labels)**: two rows of longitudes labelled 1 and 0, of latitudes labelled 0 and 1.  The first pixel gets
the longitude of the first row, or of the row with the same label, according to the latitudes. -/
theorem C95_negation_labels : ∃ lo le lo' le',
    geoLabelled (⟨numArray ("alt", "act") 2 2 rowLon, some [1, 0], none⟩ : Labelled (FP ℝ) Nat)
      ⟨numArray ("alt", "act") 2 2 (fun _ _ => 0), some [0, 1], none⟩ 2 1 (val 60) (val (4 / 5)) = .ok (lo, le) ∧
    lo.at 0 0 = val 0 ∧
    geoLabelled (⟨numArray ("alt", "act") 2 2 rowLon, some [1, 0], none⟩ : Labelled (FP ℝ) Nat)
      ⟨numArray ("alt", "act") 2 2 (fun _ _ => 61), some [0, 1], none⟩ 2 1 (val 60) (val (4 / 5)) = .ok (lo', le') ∧
    lo'.at 0 0 = val 10 := by
  obtain ⟨lo, le, e1, e2⟩ := C95_tie_points 1 2 1 2 (by omega) (by omega) (by omega) (by omega) ("alt", "act") (by decide) rowLon
    (fun _ _ => 0) 60 (4 / 5) [0, 1] [1, 0] rfl rfl (by decide) (by decide) (by decide)
  obtain ⟨lo', le', f1, f2⟩ := C95_tie_points 1 2 1 2 (by omega) (by omega) (by omega) (by omega) ("alt", "act") (by decide) rowLon
    (fun _ _ => 61) 60 (4 / 5) [0, 1] [1, 0] rfl rfl (by decide) (by decide) (by decide)
  refine ⟨lo, le, lo', le', e1, ?_, f1, ?_⟩
  · have := (e2 0 (by omega) 0 (by omega) 0 (by omega) 0 (by omega) ?_ (by norm_num [rowLon]) (by norm_num [rowLon]) (by norm_num)
      (by norm_num)).1
    · simpa [rowLon] using this
    · rw [if_neg rowLon_near]
  · have := (f2 0 (by omega) 0 (by omega) 0 (by omega) 1 (by omega) ?_ (by norm_num [rowLon]) (by norm_num [rowLon]) (by norm_num)
      (by norm_num)).1
    · simpa [rowLon] using this
    · rw [if_pos (rowLon_far _)]
      rfl

/-- **C95 (negation, names)**: whether square arrays with the names in different order are accepted depends on the
latitudes. -/
theorem C95_negation_names :
    geoLabelled (⟨numArray ("act", "alt") 2 2 rowLon, none, none⟩ : Labelled (FP ℝ) Nat)
      ⟨numArray ("alt", "act") 2 2 (fun _ _ => 0), none, none⟩ 2 1 (val 60) (val (4 / 5)) = .error .valueError ∧
    ∃ lo le, geoLabelled (⟨numArray ("act", "alt") 2 2 rowLon, none, none⟩ : Labelled (FP ℝ) Nat)
      ⟨numArray ("alt", "act") 2 2 (fun _ _ => 61), none, none⟩ 2 1 (val 60) (val (4 / 5)) = .ok (lo, le) := by
  constructor
  · refine (C95_degrees _ _ 2 1 _ _ (fun h => rowLon_near ((toCart_iff _ _ _ _ _ _ _).1 h))).2 (by omega) (by omega) (by decide)
  · have wlon := labelledOf_num (L := Nat) ("act", "alt") (by decide) 2 2 rowLon none none (by simp) (by simp)
    have wlat := labelledOf_num (L := Nat) ("alt", "act") (by decide) 2 2 (fun _ _ => 61) none none (by simp) (by simp)
    obtain ⟨m, m1, m2, m3, m4, m5⟩ := C95_exchanged 2 _ _ wlon wlat rfl (by intro _ _ h; exact absurd h (by simp))
      (by intro _ _ h; exact absurd h (by simp)) 2 1 (val 60) (val (4 / 5)) ((toCart_iff _ _ _ _ _ _ _).2 (rowLon_far _))
    have hm : m = numArray ("alt", "act") 2 2 (fun i j => rowLon j i) := by
      refine eq_numArray m _ _ _ _ m1 m2 m3 (fun i hi j hj => ?_)
      rw [m4 i hi j hj i hi j hj (by simp [SamePlace]) (by simp [SamePlace])]
      exact elem_num _ _ _ _ _ _ hj hi
    obtain ⟨lo, le, e1, _⟩ := C42_tie_points 1 2 1 2 (by omega) (by omega) (by omega) (by omega) ("alt", "act") (fun i j => rowLon j i)
      (fun _ _ => 61) 60 (4 / 5)
    rw [sphereWay_eq _ _ _ _ _ _ (by simp [numArray, DataArray.shape])
      ((toCart_iff _ _ _ _ _ _ _).2 (rowLon_far _))] at e1
    exact ⟨lo, le, by rw [m5, hm]; exact e1⟩

/-- two scans of two rows, labelled by their times -/
example := C95_tie_points 2 2 8 3 (by omega) (by omega) (by omega) (by omega) ("alt", "act") (by decide) (fun i j => i + j)
  (fun i j => 70 + i - j) 60 (4 / 5) [100, 101, 102, 103] [101, 100, 103, 102] rfl rfl (by decide) (by decide) (by decide)

/-- the same labels on both sides, and labels on one side only -/
example (T F : Nat) := C95_position 2 2 _ _
  (labelledOf_num ("alt", "act") (by decide) 2 2 rowLon (some [5, 6]) none (by rintro l ⟨⟩; exact ⟨rfl, by decide⟩) (by simp))
  (labelledOf_num ("alt", "act") (by decide) 2 2 (fun _ _ => 61) (some [5, 6]) (some [7, 8]) (by rintro l ⟨⟩; exact ⟨rfl, by decide⟩)
    (by rintro l ⟨⟩; exact ⟨rfl, by decide⟩))
  rfl (by rintro _ _ ⟨⟩ ⟨⟩; rfl) (by rintro _ _ ⟨⟩ h; exact absurd h (by simp)) T F (val 60) (val (4 / 5))

/-- labels shifted by one -/
example := C95_missing 2 2 _ _
  (labelledOf_num ("alt", "act") (by decide) 2 2 rowLon (some [5, 6]) none (by rintro l ⟨⟩; exact ⟨rfl, by decide⟩) (by simp))
  (labelledOf_num ("alt", "act") (by decide) 2 2 (fun _ _ => 61) (some [6, 7]) none (by rintro l ⟨⟩; exact ⟨rfl, by decide⟩)
    (by simp)) rfl 2 8 (by omega) (by omega) (val 60) (val (4 / 5)) ((toCart_iff _ _ _ _ _ _ _).2 (rowLon_far _))
  (Or.inl ⟨[6, 7], [5, 6], 7, rfl, rfl, by decide, by decide⟩)

/-- other names -/
example := C95_names (L := Nat) 2 3 _ _ (labelledOf_num ("y", "x") (by decide) 2 3 rowLon none none (by simp) (by simp))
  (labelledOf_num ("alt", "act") (by decide) 2 3 (fun _ _ => 61) none none (by simp) (by simp)) (by decide) (by decide) 2 8
  (by omega) (by omega) (val 60) (val (4 / 5))

end Real

/-- the rows of the latitudes come in the other order -/
example := C95_labels 2 2 _ _
  (labelledOf_num ("alt", "act") (by decide) 2 2 rowLon (some [5, 6]) none (by rintro l ⟨⟩; exact ⟨rfl, by decide⟩) (by simp))
  (labelledOf_num ("alt", "act") (by decide) 2 2 (fun _ _ => 61) (some [6, 5]) none (by rintro l ⟨⟩; exact ⟨rfl, by decide⟩)
    (by simp)) rfl (by rintro _ _ ⟨⟩ ⟨⟩; decide) (by rintro _ _ ⟨⟩) 2 8 (val 60) (val (4 / 5)) ((toCart_iff _ _ _ _ _ _ _).2 (rowLon_far _))

/-- the two arrays name their dimensions in opposite orders -/
example := C95_exchanged 2 _ _
  (labelledOf_num ("act", "alt") (by decide) 2 2 rowLon (some [5, 6]) none (by rintro l ⟨⟩; exact ⟨rfl, by decide⟩) (by simp))
  (labelledOf_num ("alt", "act") (by decide) 2 2 (fun _ _ => 61) none (some [6, 5]) (by simp) (by rintro l ⟨⟩; exact ⟨rfl, by decide⟩))
  rfl (by rintro _ _ ⟨⟩) (by rintro _ _ ⟨⟩ ⟨⟩; decide) 2 8 (val 60) (val (4 / 5)) ((toCart_iff _ _ _ _ _ _ _).2 (rowLon_far _))

/-- latitudes and longitudes for the direct way -/
example (T F : Nat) := C95_degrees (L := Nat) ⟨numArray ("alt", "act") 2 2 (fun i j => (i + j : ℝ)), some [5, 6], none⟩
  ⟨numArray ("alt", "act") 2 2 (fun i j => (i - j : ℝ)), some [7, 8], none⟩ T F (val 60) (val (4 / 5))

end Verif.Props
