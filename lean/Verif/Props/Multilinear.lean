import Verif.Proofs.Multilinear
import Mathlib.Data.Rat.Floor

/-!
# C43, C44, C45, C46: multilinear interpolation
-/

set_option linter.unusedSectionVars false

namespace Verif.Props
open Verif Verif.Spec Verif.Multilinear FP

section Setup
variable {K : Type} [Field K] [LinearOrder K] [IsStrictOrderedRing K]

/-- a grid the kernels can address: one to four dimensions, at least two nodes along each, fewer than `2^31` nodes -/
structure GridOk (G : List (Axis K)) : Prop where
  one : 1 ≤ G.length
  four : G.length ≤ 4
  two : ∀ g ∈ G, 2 ≤ g.n
  total : (G.map Axis.n).prod < 2 ^ 31

/-- `MultilinearInterpolator(smin, smax, orders, values)` -/
def mli (G : List (Axis K)) (values : Arr2 (FP K)) : MLI (FP K) :=
  ⟨G.map (fun g => val g.lo), G.map (fun g => val g.hi), G.map (fun g => (g.n : Int)), some values⟩

/-- column `j` of `s` holds the coordinates of the point `p` -/
def AtPoint (s : Arr2 (FP K)) (j : Nat) (p : List K) : Prop := ∀ k (h : k < p.length), s.cell k j = val p[k]

theorem sized_of_grid {G : List (Axis K)} (hG : GridOk G) :
    Sized (Arr1.ofList (0 : FP K) (G.map (fun g => val g.lo))) (Arr1.ofList 0 (G.map (fun g => val g.hi)))
      (Arr1.ofList 0 (G.map (fun g => (g.n : Int)))) (G.map Axis.n) where
  min := by simp [Arr1.ofList]
  max := by simp [Arr1.ofList]
  len := by simp [Arr1.ofList]
  orders := by
    intro k h
    simp only [List.length_map] at h
    simp [Arr1.ofList, List.getD, List.getElem?_eq_getElem h]
  two := by
    intro n hn
    obtain ⟨g, hg, rfl⟩ := List.mem_map.1 hn
    exact hG.two g hg
  total := hG.total

theorem mli_ok (cast : FP K → Int) (reorder : Nat → List Nat → List Nat) (junk : Nat → Nat → FP K) (G : List (Axis K))
    (hG : GridOk G) (values s : Arr2 (FP K)) (hV : (G.map Axis.n).prod ≤ values.cols) (hs : s.rows = G.length)
    (hn : s.cols < 2 ^ 31) (hre : ∀ i, (reorder i (List.range s.cols)).Perm (List.range s.cols)) :
    ∃ r, (mli G values).interpolate cast reorder junk s = .ok r ∧ r.rows = values.rows ∧ r.cols = s.cols ∧
      ∀ i < values.rows, ∀ j < s.cols, ∀ p : List K, p.length = G.length → AtPoint s j p →
        r.cell i j = mlin (List.zipWith (fun g x => coord cast (val g.lo) (val g.hi) g.n (val x)) G p)
          (fun is => values.cell i (ravel (G.map Axis.n) is)) := by
  obtain ⟨r, e, h1, h2, h3⟩ := multi_ok cast reorder junk _ _ _ _ values s (sized_of_grid hG) (by simpa using hG.one)
    (by simpa using hG.four) (by simpa using hs) hn hV hre
  refine ⟨r, e, h1, h2, ?_⟩
  intro i hi j hj p hp hat
  rw [h3 i hi j hj]
  congr 1
  apply List.ext_getElem
  · simp [coords, hp]
  · intro k a1 a2
    have hk : k < G.length := by simpa [coords] using a1
    simp [coords, Arr1.ofList, List.getD, List.getElem?_eq_getElem hk, hat k (by omega)]

theorem cells_lt (cast : FP K → Int) (G : List (Axis K)) (h2 : ∀ g ∈ G, 2 ≤ g.n) (p : List K) (hp : p.length = G.length) :
    List.Forall₂ (fun (c : Nat × FP K) n => c.1 + 1 < n)
      (List.zipWith (fun g x => coord cast (val g.lo) (val g.hi) g.n (val x)) G p) (G.map Axis.n) := by
  induction G generalizing p with
  | nil => simp
  | cons g G ih =>
    match p, hp with
    | x :: p, hp =>
      simp only [List.zipWith_cons_cons, List.map_cons]
      exact List.Forall₂.cons (coord_lt _ _ _ _ _ (h2 g (by simp))) (ih (fun g' hg' => h2 g' (by simp [hg'])) p
        (by simpa using hp))

theorem n_lt {G : List (Axis K)} (hG : GridOk G) {g : Axis K} (hg : g ∈ G) : g.n < 2 ^ 31 :=
  lt_of_le_of_lt (le_prod (sized_of_grid hG).two (List.mem_map_of_mem hg)) hG.total

end Setup

/-! ### an instance of the hypotheses -/

/-- truncation towards zero -/
def trunc : FP ℚ → Int
  | .val x => if 0 ≤ x then ⌊x⌋ else ⌈x⌉
  | .bad => 0

theorem trunc_ok : CTrunc trunc := by
  intro x _ _
  by_cases h : 0 ≤ x
  · rw [if_pos h]
    simp only [trunc, if_pos h]
    exact ⟨Int.floor_le x, Int.lt_floor_add_one x⟩
  · rw [if_neg h]
    simp only [trunc, if_neg h]
    exact ⟨Int.le_ceil x, Int.ceil_lt_add_one x⟩

/-- two by three nodes over `[0, 1] × [4, 2]` -/
def gridEx : List (Axis ℚ) := [⟨0, 1, 2⟩, ⟨4, 2, 3⟩]

theorem gridEx_ok : GridOk gridEx := ⟨by decide, by decide, by decide, by decide⟩

/-- one row of values, `0, 1, …, 5` -/
def valuesEx : Arr2 (FP ℚ) := ⟨1, 6, fun _ k => val k⟩

/-- iterations backwards -/
def backwards : Nat → List Nat → List Nat := fun _ l => l.reverse

theorem backwards_ok (n : Nat) : ∀ i, (backwards i (List.range n)).Perm (List.range n) :=
  fun _ => List.reverse_perm _

/-! ### C43 -/

section C43
variable {K : Type} [Field K] [LinearOrder K] [IsStrictOrderedRing K]

/-- **C43 (nodes)**: in one to four dimensions, for any bounds `lo ≠ hi`, any orders `≥ 2` (fewer than `2^31` nodes in
all), any values in row `i` that are numbers, any number of value rows and points, and any schedule: at the node with
indices `is` the result is the value at position `is` of the enumeration with the last index varying fastest.

Missing for the full property: values that are not numbers (`C43_negation_nan`). -/
theorem C43_nodes_partial (cast : FP K → Int) (hcast : CTrunc cast) (reorder : Nat → List Nat → List Nat)
    (junk : Nat → Nat → FP K) (G : List (Axis K)) (hG : GridOk G) (hne : ∀ g ∈ G, g.lo ≠ g.hi) (values s : Arr2 (FP K))
    (hV : (G.map Axis.n).prod ≤ values.cols) (hs : s.rows = G.length) (hn : s.cols < 2 ^ 31)
    (hre : ∀ i, (reorder i (List.range s.cols)).Perm (List.range s.cols)) :
    ∃ r, (mli G values).interpolate cast reorder junk s = .ok r ∧ r.rows = values.rows ∧ r.cols = s.cols ∧
      ∀ i < values.rows, (∀ k < (G.map Axis.n).prod, ∃ v, values.cell i k = val v) →
        ∀ j < s.cols, ∀ is, Index G is → AtPoint s j (nodeAt G is) →
          r.cell i j = values.cell i (ravel (G.map Axis.n) is) := by
  obtain ⟨r, e, h1, h2, h3⟩ := mli_ok cast reorder junk G hG values s hV hs hn hre
  refine ⟨r, e, h1, h2, ?_⟩
  intro i hi hnum j hj is his hat
  have hlen : is.length = G.length := by simpa using his.length_eq
  have hp : (nodeAt G is).length = G.length := by simp [nodeAt, hlen]
  rw [h3 i hi j hj _ hp hat]
  let W : List Nat → K := fun is => match values.cell i (ravel (G.map Axis.n) is) with
    | .val v => v
    | .bad => 0
  have hW : ∀ is, Index G is → values.cell i (ravel (G.map Axis.n) is) = val (W is) := by
    intro is his
    obtain ⟨v, hv⟩ := hnum _ (ravel_lt _ _ his)
    simp only [W, hv]
  rw [mlin_congr _ _ (cells_lt cast G hG.two _ hp) _ (fun is => val (W is)) hW, hW is his]
  apply mlin_node
  have hlt : ∀ g ∈ G, g.n < 2 ^ 31 := fun g hg => n_lt hG hg
  have h22 := hG.two
  clear h3 hnum hat hW W hV hs hp hG e
  unfold nodeAt
  unfold Index at his
  induction G generalizing is with
  | nil => simp at his; subst his; simp
  | cons g G ih =>
    match is, hlen with
    | k :: is, hlen =>
      simp only [List.map_cons, List.forall₂_cons] at his
      simp only [List.zipWith_cons_cons]
      exact List.Forall₂.cons (norm_at_node cast hcast g.lo g.hi g.n k (hne g (by simp)) (h22 g (by simp))
        (hlt g (by simp)) his.1) (ih (fun g' hg' => hne g' (by simp [hg'])) is his.2 (by simpa using hlen)
        (fun g' hg' => hlt g' (by simp [hg'])) (fun g' hg' => h22 g' (by simp [hg'])))

theorem axes_grid (G : List (Axis K)) :
    axes (G.map (fun g => val g.lo)) (G.map (fun g => val g.hi)) (G.map (fun g => (g.n : Int))) =
      .ok (G.map (fun g => linspace (val g.lo) (val g.hi) g.n)) := by
  induction G with
  | nil => rfl
  | cons g G ih =>
    simp only [List.map_cons, axes]
    rw [if_neg (by omega), ih]
    rfl

/-- **C43 (grid attribute)**: in two to four dimensions, evaluating at the columns of `grid` returns the values, in the
order they were given. -/
theorem C43_grid_partial (cast : FP K → Int) (hcast : CTrunc cast) (reorder : Nat → List Nat → List Nat)
    (junk : Nat → Nat → FP K) (G : List (Axis K)) (hG : GridOk G) (hd : 2 ≤ G.length) (hne : ∀ g ∈ G, g.lo ≠ g.hi)
    (values : Arr2 (FP K)) (hV : (G.map Axis.n).prod = values.cols)
    (hre : ∀ i, (reorder i (List.range values.cols)).Perm (List.range values.cols))
    (hnum : ∀ i < values.rows, ∀ k < values.cols, ∃ v, values.cell i k = val v) :
    ∃ cols r, (mli G values).grid = .ok cols ∧ cols.length = values.cols ∧ (∀ c ∈ cols, c.length = G.length) ∧
      (mli G values).interpolate cast reorder junk ⟨G.length, cols.length, fun k j => (cols.getD j []).getD k 0⟩ = .ok r ∧
      r.rows = values.rows ∧ r.cols = values.cols ∧
      ∀ i < values.rows, ∀ j < values.cols, r.cell i j = values.cell i j := by
  let ax : Axis K → List (FP K) := fun g => linspace (val g.lo) (val g.hi) g.n
  have hax : ∀ g, (ax g).length = g.n := fun g => linspace_length _ _ _
  have hgrid : (mli G values).grid = .ok (mesh (G.map ax)) := by
    unfold MLI.grid mlinspace mli
    simp only [List.length_map]
    rw [if_neg (by omega), if_neg (by omega), axes_grid]
    rfl
  have hlenmap : G.map (fun g => (ax g).length) = G.map Axis.n := by
    apply List.map_congr_left; intro g _; exact hax g
  have hlen : (mesh (G.map ax)).length = values.cols := by
    rw [mesh_length, List.map_map, ← hV, ← hlenmap]; rfl
  have hpt : ∀ is, Index G is → (mesh (G.map ax))[ravel (G.map Axis.n) is]? = some ((nodeAt G is).map val) := by
    intro is his
    have := mesh_get ax (fun g i => val (node g.lo g.hi g.n i)) G is (by
      unfold Index at his
      have h22 := hG.two
      clear hgrid hlenmap hlen hG hd hne hV hre hnum
      induction G generalizing is with
      | nil => simpa using his
      | cons g G ih =>
        match is, his with
        | k :: is, his =>
          simp only [List.map_cons, List.forall₂_cons] at his
          exact List.Forall₂.cons (linspace_get g.lo g.hi g.n (h22 g (by simp)) k his.1)
            (ih is his.2 (fun g' hg' => h22 g' (by simp [hg']))))
    rw [hlenmap] at this
    rw [this, nodeAt, List.map_zipWith]
  have hrav : ∀ j < values.cols, ∃ is, Index G is ∧ ravel (G.map Axis.n) is = j := by
    intro j hj
    exact ravel_surj _ j (by rw [hV]; exact hj)
  obtain ⟨r, e, h1, h2, h3⟩ := C43_nodes_partial cast hcast reorder junk G hG hne values
    ⟨G.length, (mesh (G.map ax)).length, fun k j => ((mesh (G.map ax)).getD j []).getD k 0⟩ (by omega) rfl
    (by simp only; rw [hlen, ← hV]; exact hG.total) (by simp only; rw [hlen]; exact hre)
  refine ⟨mesh (G.map ax), r, hgrid, hlen, ?_, e, h1, by rw [h2]; exact hlen, ?_⟩
  · intro c hc
    obtain ⟨j, hj⟩ := List.mem_iff_getElem?.1 hc
    have hjl : j < values.cols := by rw [← hlen]; exact (List.getElem?_eq_some_iff.1 hj).1
    obtain ⟨is, his, rfl⟩ := hrav j hjl
    rw [hpt is his, Option.some.injEq] at hj
    have : is.length = G.length := by simpa using his.length_eq
    rw [← hj]
    simp [nodeAt, this]
  · intro i hi j hj
    obtain ⟨is, his, rfl⟩ := hrav j hj
    refine h3 i hi (fun k hk => hnum i hi k (by omega)) _ (by simp only; rw [hlen]; exact hj) is his ?_
    intro k hk
    simp [List.getD, hpt is his, List.getElem?_eq_getElem hk]

/-- the hypotheses of `C43_nodes_partial` and `C43_grid_partial` are met: the node `(1, 3)` of a grid of two by three nodes,
indices `[1, 1]`, position 4 -/
example : ∃ r, (mli gridEx valuesEx).interpolate trunc backwards (fun _ _ => bad)
    ⟨2, 2, fun k j => if j = 0 then val 0 else if k = 0 then val 1 else val 3⟩ = .ok r ∧ r.cell 0 1 = val 4 := by
  obtain ⟨r, e, h1, h2, h3⟩ := C43_nodes_partial trunc trunc_ok backwards (fun _ _ => bad) gridEx gridEx_ok
    (by decide) valuesEx ⟨2, 2, fun k j => if j = 0 then val 0 else if k = 0 then val 1 else val 3⟩ (by decide) (by decide)
    (by decide) (backwards_ok 2)
  refine ⟨r, e, ?_⟩
  rw [h3 0 (by decide) (fun k _ => ⟨k, rfl⟩) 1 (by decide) [1, 1]
    (List.Forall₂.cons (by decide) (List.Forall₂.cons (by decide) List.Forall₂.nil)) ?_]
  · rfl
  · intro k hk
    have : k = 0 ∨ k = 1 := by simp [nodeAt, gridEx] at hk; omega
    rcases this with rfl | rfl <;> simp [nodeAt, gridEx, node] <;> norm_num

example : ∃ cols r, (mli gridEx valuesEx).grid = .ok cols ∧
    (mli gridEx valuesEx).interpolate trunc backwards (fun _ _ => bad)
      ⟨2, cols.length, fun k j => (cols.getD j []).getD k 0⟩ = .ok r ∧ ∀ j < 6, r.cell 0 j = val (j : ℚ) := by
  obtain ⟨cols, r, h1, _, _, h4, _, _, h7⟩ := C43_grid_partial trunc trunc_ok backwards (fun _ _ => bad) gridEx gridEx_ok
    (by decide) (by decide) valuesEx rfl (backwards_ok _) (fun i _ k _ => ⟨k, rfl⟩)
  exact ⟨cols, r, h1, h4, fun j hj => h7 0 (by decide) j hj⟩

/-- **C43 (grid with one node per axis)**: the grid of an interpolator with one node along each of its two or more axes is
the lower corner. -/
theorem C43_grid_single (G : List (Axis K)) (hd : 2 ≤ G.length) (h1 : ∀ g ∈ G, g.n = 1) (values : Arr2 (FP K)) :
    (mli G values).grid = .ok [G.map (fun g => val g.lo)] := by
  unfold MLI.grid mlinspace mli
  simp only [List.length_map]
  rw [if_neg (by omega), if_neg (by omega), axes_grid]
  simp only [bind, Except.bind]
  congr 1
  clear hd
  induction G with
  | nil => rfl
  | cons g G ih =>
    have hg : linspace (val g.lo) (val g.hi) 1 = [val g.lo] := by
      unfold linspace
      rw [if_pos (le_refl 1)]
      simp
    simp only [List.map_cons, h1 g (by simp), hg, mesh, List.flatMap_cons, List.flatMap_nil, List.append_nil]
    have := ih (fun g' hg' => h1 g' (by simp [hg']))
    rw [this]
    rfl

example : (mli [(⟨2, 5, 1⟩ : Axis ℚ), ⟨-1, 3, 1⟩] ⟨1, 1, fun _ _ => val 7⟩).grid = .ok [[val 2, val (-1)]] :=
  C43_grid_single _ (by decide) (by decide) _

/-- **C43 (refused grids)**: with two or more axes the grid is refused if bounds are missing (IndexError) or an order is negative
(ValueError), whichever comes first, and otherwise it has as many points as the product of the orders, each with one coordinate
per axis. -/
theorem C43_grid_errors {α : Type} [Arith α] (smin smax : List α) (orders : List Int) (values : Option (Arr2 α)) (hd : 2 ≤ orders.length) :
    (∀ n, (∀ k < n, 0 ≤ orders.getD k 0) → n < orders.length → (smin.length = n ∧ n ≤ smax.length ∨ smax.length = n ∧ n ≤ smin.length) →
      (MLI.mk smin smax orders values).grid = .error .indexError) ∧
    (∀ n, (∀ k < n, 0 ≤ orders.getD k 0) → orders.getD n 0 < 0 → n < smin.length → n < smax.length →
      (MLI.mk smin smax orders values).grid = .error .valueError) ∧
    ((∀ n ∈ orders, 0 ≤ n) → orders.length ≤ smin.length → orders.length ≤ smax.length →
      ∃ cols, (MLI.mk smin smax orders values).grid = .ok cols ∧ cols.length = (orders.map Int.toNat).prod ∧
        ∀ c ∈ cols, c.length = orders.length) := by
  have key : (MLI.mk smin smax orders values).grid = (do let l ← axes smin smax orders; Except.ok (mesh l)) := by
    unfold MLI.grid mlinspace
    simp only
    rw [if_neg (by omega), if_neg (by omega)]
  rw [key]
  clear key hd
  refine ⟨?_, ?_, ?_⟩
  · intro n h hn hl
    have : axes smin smax orders = .error .indexError := by
      induction n generalizing smin smax orders with
      | zero =>
        obtain ⟨o, os, rfl⟩ := List.exists_cons_of_ne_nil (l := orders) (by intro e; subst e; simp at hn)
        rcases hl with ⟨h1, _⟩ | ⟨h1, _⟩
        · rw [List.length_eq_zero_iff] at h1
          subst h1
          rfl
        · rw [List.length_eq_zero_iff] at h1
          subst h1
          cases smin <;> rfl
      | succ n ih =>
        obtain ⟨o, os, rfl⟩ := List.exists_cons_of_ne_nil (l := orders) (by intro e; subst e; simp at hn)
        obtain ⟨a, as, rfl⟩ := List.exists_cons_of_ne_nil (l := smin) (by intro e; subst e; simp at hl)
        obtain ⟨b, bs, rfl⟩ := List.exists_cons_of_ne_nil (l := smax) (by intro e; subst e; simp at hl)
        have h0 := h 0 (by omega)
        simp only [List.getD_cons_zero] at h0
        simp only [List.length_cons] at hn hl
        rw [axes, if_neg (by omega), ih as bs os (fun k hk => by simpa using h (k + 1) (by omega)) (by omega) (by omega)]
        rfl
    rw [this]; rfl
  · intro n h hn h1 h2
    have : axes smin smax orders = .error .valueError := by
      induction n generalizing smin smax orders with
      | zero =>
        obtain ⟨o, os, rfl⟩ := List.exists_cons_of_ne_nil (l := orders) (by intro e; subst e; simp at hn)
        obtain ⟨a, as, rfl⟩ := List.exists_cons_of_ne_nil (l := smin) (by intro e; subst e; simp at h1)
        obtain ⟨b, bs, rfl⟩ := List.exists_cons_of_ne_nil (l := smax) (by intro e; subst e; simp at h2)
        rw [axes, if_pos (by simpa using hn)]
      | succ n ih =>
        obtain ⟨o, os, rfl⟩ := List.exists_cons_of_ne_nil (l := orders) (by intro e; subst e; simp at hn)
        obtain ⟨a, as, rfl⟩ := List.exists_cons_of_ne_nil (l := smin) (by intro e; subst e; simp at h1)
        obtain ⟨b, bs, rfl⟩ := List.exists_cons_of_ne_nil (l := smax) (by intro e; subst e; simp at h2)
        have h0 := h 0 (by omega)
        simp only [List.getD_cons_zero] at h0
        simp only [List.length_cons] at h1 h2
        rw [axes, if_neg (by omega), ih as bs os (fun k hk => by simpa using h (k + 1) (by omega)) (by simpa using hn) (by omega)
          (by omega)]
        rfl
    rw [this]; rfl
  · intro h h1 h2
    have : ∃ l : List (List α), axes smin smax orders = .ok l ∧ l.map List.length = orders.map Int.toNat := by
      induction orders generalizing smin smax with
      | nil => exact ⟨[], by cases smin <;> cases smax <;> rfl, rfl⟩
      | cons o os ih =>
        obtain ⟨a, as, rfl⟩ := List.exists_cons_of_ne_nil (l := smin) (by intro e; subst e; simp at h1)
        obtain ⟨b, bs, rfl⟩ := List.exists_cons_of_ne_nil (l := smax) (by intro e; subst e; simp at h2)
        simp only [List.length_cons] at h1 h2
        obtain ⟨l, e, hl⟩ := ih as bs (fun n hn => h n (by simp [hn])) (by omega) (by omega)
        have := h o (by simp)
        refine ⟨linspace a b o.toNat :: l, ?_, ?_⟩
        · rw [axes, if_neg (by omega), e]; rfl
        · have hll : (linspace a b o.toNat).length = o.toNat := by unfold linspace; split <;> simp
          simp [hl, hll]
    obtain ⟨l, e, hl⟩ := this
    refine ⟨mesh l, by rw [e]; rfl, by rw [mesh_length, hl], ?_⟩
    have hlen : l.length = orders.length := by simpa using congrArg List.length hl
    rw [← hlen]
    clear e hl hlen h h1 h2
    induction l with
    | nil => intro c hc; simp [mesh] at hc; simp [hc]
    | cons x l ih =>
      intro c hc
      simp only [mesh, List.mem_flatMap, List.mem_map] at hc
      obtain ⟨_, _, d, hd, rfl⟩ := hc
      simp [ih d hd]

example : (MLI.mk [val (0 : ℚ)] [val 1, val 2] [3, 4] none).grid = .error .indexError :=
  (C43_grid_errors _ _ _ _ (by decide)).1 1 (by decide) (by decide) (by decide)
example : (MLI.mk [val (0 : ℚ), val 0] [val 1] [3, -4] none).grid = .error .indexError :=
  (C43_grid_errors _ _ _ _ (by decide)).1 1 (by decide) (by decide) (by decide)
example : (MLI.mk [val (0 : ℚ)] [val 1] [-3, 4] none).grid = .error .valueError :=
  (C43_grid_errors _ _ _ _ (by decide)).2.1 0 (by decide) (by decide) (by decide) (by decide)
example : ∃ cols, (MLI.mk [val (0 : ℚ), val 1] [val 1, val 2] [3, 0] none).grid = .ok cols ∧ cols.length = 0 := by
  obtain ⟨cols, h, h', _⟩ := (C43_grid_errors [val (0 : ℚ), val 1] [val 1, val 2] [3, 0] none (by decide)).2.2 (by decide) (by decide) (by decide)
  exact ⟨cols, h, h'⟩

/-- **C43 is false when a value is not a number**: a NaN at one node makes the result at the neighbouring node, whose
own value is `v`, not a number (`0 * NaN` is NaN). -/
theorem C43_negation_nan (cast : FP K → Int) (junk : Nat → Nat → FP K) (v : K) :
    ∃ r, (mli [⟨0, 1, 2⟩] ⟨1, 2, fun _ k => if k = 0 then val v else bad⟩).interpolate cast (fun _ l => l) junk
      ⟨1, 1, fun _ _ => val 0⟩ = .ok r ∧ nodeAt [(⟨0, 1, 2⟩ : Axis K)] [0] = [0] ∧ r.cell 0 0 = bad := by
  have hG : GridOk [(⟨0, 1, 2⟩ : Axis K)] := ⟨by simp, by simp, by simp, by simp⟩
  obtain ⟨r, e, _, _, h⟩ := mli_ok cast (fun _ l => l) junk [⟨0, 1, 2⟩] hG
    ⟨1, 2, fun _ k => if k = 0 then val v else bad⟩ ⟨1, 1, fun _ _ => val 0⟩ (by simp) rfl (by simp)
    (fun _ => List.Perm.refl _)
  refine ⟨r, e, by simp [nodeAt, node], ?_⟩
  rw [h 0 (by simp) 0 (by simp) [0] rfl (by
    intro k hk
    have : k = 0 := by simpa using hk
    subst this
    rfl)]
  have hc := coord_lt cast (val (0 : K)) (val 1) 2 (val 0) le_rfl
  have hq : (coord cast (val (0 : K)) (val 1) 2 (val 0)).1 = 0 := by omega
  simp only [List.zipWith_cons_cons, List.zipWith_nil_left]
  generalize hcc : coord cast (val (0 : K)) (val 1) 2 (val 0) = c at hq
  obtain ⟨q, l⟩ := c
  simp only at hq
  subst hq
  simp [mlin, ravel]

/-- **C43 is false of the `grid` attribute in one dimension**: it raises TypeError, so there is no enumeration of the
nodes to compare with. -/
theorem C43_negation_grid_1d (g : Axis K) (values : Arr2 (FP K)) : (mli [g] values).grid = .error .typeError := rfl

end C43

/-! ### C44 -/

section C44
variable {K : Type} [Field K] [LinearOrder K] [IsStrictOrderedRing K]

/-- nested interpolation of a function affine in each coordinate, at any point -/
theorem mlin_exact (cast : FP K → Int) (G : List (Axis K)) (h2 : ∀ g ∈ G, 2 ≤ g.n) (hne : ∀ g ∈ G, g.lo ≠ g.hi) (V : List Nat → FP K)
    (f : List K → K) (hf : MultiAffine G.length f) (hval : ∀ is, Index G is → V is = val (f (nodeAt G is)))
    (p : List K) (hp : p.length = G.length) :
    mlin (List.zipWith (fun g x => coord cast (val g.lo) (val g.hi) g.n (val x)) G p) V = val (f p) := by
  let dim : Axis K → K → Dim K := fun g x =>
    ⟨node g.lo g.hi g.n, (coord cast (val g.lo) (val g.hi) g.n (val x)).1,
      norm g.lo g.hi g.n x - ((coord cast (val g.lo) (val g.hi) g.n (val x)).1 : K)⟩
  let D := List.zipWith dim G p
  have hlD : D.length = G.length := by simp [D, hp]
  have e1 : List.zipWith (fun g x => coord cast (val g.lo) (val g.hi) g.n (val x)) G p
      = D.map (fun d => (d.q, val d.l)) := by
    apply List.ext_getElem
    · simp [D]
    · intro k a1 a2
      have hk : k < G.length := by simp at a1; omega
      simp only [D, dim, List.getElem_zipWith, List.getElem_map]
      have hgk := hne _ (List.getElem_mem hk)
      rw [coord_val cast _ _ _ _ hgk]
  have e2 : ∀ is, Index G is → nodeAt G is = List.zipWith (fun (d : Dim K) i => d.at_ i) D is := by
    intro is his
    have hl : is.length = G.length := by simpa using his.length_eq
    apply List.ext_getElem
    · simp [nodeAt, hlD]
    · intro k a1 a2
      simp [nodeAt, D, dim]
  have e3 : D.map (fun d => (1 - d.l) * d.at_ d.q + d.l * d.at_ (d.q + 1)) = p := by
    apply List.ext_getElem
    · simp [D, hp]
    · intro k a1 a2
      have hk : k < G.length := by omega
      simp only [D, dim, List.getElem_zipWith, List.getElem_map]
      exact norm_node _ _ _ _ (hne _ (List.getElem_mem hk)) (h2 _ (List.getElem_mem hk)) _
  rw [mlin_congr _ _ (cells_lt cast G h2 p hp) _
    (fun is => val (f ([] ++ List.zipWith (fun (d : Dim K) i => d.at_ i) D is))) (by
      intro is his
      rw [hval is his, e2 is his, List.nil_append]), e1, mlin_affine D f [] (by simpa [hlD] using hf), e3,
    List.nil_append]

/-- **C44**: if row `i` of the values samples a function affine in each coordinate, the result at every point, inside or
outside the grid, is that function's value.  The conversion to `int` may return any integer, so this also holds for points
whose grid coordinates do not fit an `int`. -/
theorem C44_exact (cast : FP K → Int) (reorder : Nat → List Nat → List Nat) (junk : Nat → Nat → FP K) (G : List (Axis K))
    (hG : GridOk G) (hne : ∀ g ∈ G, g.lo ≠ g.hi) (values s : Arr2 (FP K)) (hV : (G.map Axis.n).prod ≤ values.cols)
    (hs : s.rows = G.length) (hn : s.cols < 2 ^ 31)
    (hre : ∀ i, (reorder i (List.range s.cols)).Perm (List.range s.cols)) :
    ∃ r, (mli G values).interpolate cast reorder junk s = .ok r ∧ r.rows = values.rows ∧ r.cols = s.cols ∧
      ∀ i < values.rows, ∀ f : List K → K, MultiAffine G.length f →
        (∀ is, Index G is → values.cell i (ravel (G.map Axis.n) is) = val (f (nodeAt G is))) →
        ∀ j < s.cols, ∀ p : List K, p.length = G.length → AtPoint s j p → r.cell i j = val (f p) := by
  obtain ⟨r, e, h1, h2, h3⟩ := mli_ok cast reorder junk G hG values s hV hs hn hre
  refine ⟨r, e, h1, h2, ?_⟩
  intro i hi f hf hval j hj p hp hat
  rw [h3 i hi j hj p hp hat]
  exact mlin_exact cast G hG.two hne _ f hf hval p hp

/-- the function `3 x y + x - 2`, sampled on the grid, at the point `(7, -11)`, outside the grid -/
example : ∃ r, (mli gridEx ⟨1, 6, fun _ k => if k < 3 then val (-2) else val (11 - 3 * ((k : ℚ) - 3))⟩).interpolate trunc
    backwards (fun _ _ => bad) ⟨2, 1, fun k _ => if k = 0 then val 7 else val (-11)⟩ = .ok r ∧
    r.cell 0 0 = val (-226) := by
  obtain ⟨r, e, _, _, h⟩ := C44_exact trunc backwards (fun _ _ => bad) gridEx gridEx_ok (by decide)
    ⟨1, 6, fun _ k => if k < 3 then val (-2) else val (11 - 3 * ((k : ℚ) - 3))⟩
    ⟨2, 1, fun k _ => if k = 0 then val 7 else val (-11)⟩ (by decide) (by decide) (by decide) (backwards_ok 1)
  refine ⟨r, e, ?_⟩
  rw [h 0 (by decide) (fun p => 3 * p.getD 0 0 * p.getD 1 0 + p.getD 0 0 - 2) ?_ ?_ 0 (by decide) [7, -11] (by decide) ?_]
  · norm_num
  · intro pre x y t post hl
    have : gridEx.length = 2 := rfl
    rw [this] at hl
    match pre, post, hl with
    | [], [b], _ => simp; ring
    | [a], [], _ => simp; ring
    | [], [], hl => simp at hl
    | [], _ :: _ :: _, hl => simp at hl; omega
    | [_], _ :: _, hl => simp at hl
    | _ :: _ :: _, _, hl => simp at hl; omega
  · intro is his
    match is, his with
    | [a, b], his =>
      simp only [Index, gridEx, List.map_cons, List.map_nil, List.forall₂_cons] at his
      obtain ⟨ha, hb, _⟩ := his
      have ha' : a = 0 ∨ a = 1 := by omega
      have hb' : b = 0 ∨ b = 1 ∨ b = 2 := by omega
      rcases ha' with rfl | rfl <;> rcases hb' with rfl | rfl | rfl <;>
        simp [ravel, gridEx, nodeAt, node] <;> norm_num
    | [], his => simp [Index, gridEx] at his
    | [_], his => simp [Index, gridEx] at his
    | _ :: _ :: _ :: _, his => simp [Index, gridEx] at his
  · intro k hk
    have : k = 0 ∨ k = 1 := by simp at hk; omega
    rcases this with rfl | rfl <;> rfl

end C44

/-! ### C45 -/

section C45
variable {α : Type} [Arith α]

/-- **C45 (in bounds)**: for every arithmetic, every conversion to `int`, every schedule, all contents of the arrays (also
points and values that are not numbers): with one to four dimensions, orders `≥ 2`, fewer than `2^31` nodes, as many
values as nodes in each row and points with one coordinate per dimension, no access leaves its array and no `int`
overflows: the call returns an array with one row per value row and one column per point. -/
theorem C45_in_bounds (cast : α → Int) (reorder : Nat → List Nat → List Nat) (junk : Nat → Nat → α) (m : MLI α)
    (ns : List Nat) (ho : m.orders = ns.map (fun (n : Nat) => (n : Int))) (h1 : 1 ≤ ns.length) (h4 : ns.length ≤ 4)
    (h2 : ∀ n ∈ ns, 2 ≤ n) (ht : ns.prod < 2 ^ 31) (hmin : m.smin.length = ns.length) (hmax : m.smax.length = ns.length)
    (values : Arr2 α) (hv : m.values = some values) (hV : values.cols = ns.prod) (s : Arr2 α) (hs : s.rows = ns.length)
    (hn : s.cols < 2 ^ 31) (hre : ∀ i, (reorder i (List.range s.cols)).Perm (List.range s.cols)) :
    ∃ r, m.interpolate cast reorder junk s = .ok r ∧ r.rows = values.rows ∧ r.cols = s.cols := by
  have hz : Sized (Arr1.ofList 0 m.smin) (Arr1.ofList 0 m.smax) (Arr1.ofList 0 m.orders) ns := by
    refine ⟨by simpa [Arr1.ofList] using hmin, by simpa [Arr1.ofList] using hmax, by simp [Arr1.ofList, ho], ?_, h2, ht⟩
    intro k hk
    simp [Arr1.ofList, ho, List.getD, List.getElem?_eq_getElem hk]
  obtain ⟨r, e, a1, a2, _⟩ := multi_ok cast reorder junk _ _ _ ns values s hz h1 h4 hs hn (by omega) hre
  refine ⟨r, ?_, a1, a2⟩
  unfold MLI.interpolate
  rw [hv]
  exact e

example : ∃ r, (mli gridEx valuesEx).interpolate (fun _ => 1000) backwards (fun _ _ => bad) ⟨2, 3, fun _ _ => bad⟩ = .ok r
    ∧ r.rows = 1 ∧ r.cols = 3 :=
  C45_in_bounds (fun _ => 1000) backwards (fun _ _ => bad) (mli gridEx valuesEx) [2, 3] rfl (by decide) (by decide)
    (by decide) (by decide) rfl rfl valuesEx rfl rfl ⟨2, 3, fun _ _ => bad⟩ rfl (by decide) (backwards_ok 3)

variable {K : Type} [Field K] [LinearOrder K] [IsStrictOrderedRing K]

/-- **C45 (range)**: for a point inside the grid the result is a number between any bounds of the values of its row. -/
theorem C45_between (cast : FP K → Int) (hcast : CTrunc cast) (reorder : Nat → List Nat → List Nat)
    (junk : Nat → Nat → FP K) (G : List (Axis K)) (hG : GridOk G) (hlt : ∀ g ∈ G, g.lo < g.hi) (values s : Arr2 (FP K))
    (hV : (G.map Axis.n).prod ≤ values.cols) (hs : s.rows = G.length) (hn : s.cols < 2 ^ 31)
    (hre : ∀ i, (reorder i (List.range s.cols)).Perm (List.range s.cols)) :
    ∃ r, (mli G values).interpolate cast reorder junk s = .ok r ∧ r.rows = values.rows ∧ r.cols = s.cols ∧
      ∀ i < values.rows, ∀ lo hi : K,
        (∀ k < (G.map Axis.n).prod, ∃ v, values.cell i k = val v ∧ lo ≤ v ∧ v ≤ hi) →
        ∀ j < s.cols, ∀ p, Inside G p → AtPoint s j p → ∃ v, r.cell i j = val v ∧ lo ≤ v ∧ v ≤ hi := by
  obtain ⟨r, e, h1, h2, h3⟩ := mli_ok cast reorder junk G hG values s hV hs hn hre
  refine ⟨r, e, h1, h2, ?_⟩
  intro i hi lo hi' hnum j hj p hin hat
  have hp : p.length = G.length := hin.length_eq
  rw [h3 i hi j hj p hp hat]
  let W : List Nat → K := fun is => match values.cell i (ravel (G.map Axis.n) is) with
    | .val v => v
    | .bad => 0
  have hW : ∀ is, Index G is → values.cell i (ravel (G.map Axis.n) is) = val (W is) ∧ lo ≤ W is ∧ W is ≤ hi' := by
    intro is his
    obtain ⟨v, hv, b1, b2⟩ := hnum _ (ravel_lt _ _ his)
    have : W is = v := by simp only [W, hv]
    rw [this]
    exact ⟨hv, b1, b2⟩
  rw [mlin_congr _ _ (cells_lt cast G hG.two _ hp) _ (fun is => val (W is)) (fun is his => (hW is his).1)]
  let cs := List.zipWith (fun (g : Axis K) x => ((coord cast (val g.lo) (val g.hi) g.n (val x)).1,
    norm g.lo g.hi g.n x - ((coord cast (val g.lo) (val g.hi) g.n (val x)).1 : K))) G p
  have e1 : List.zipWith (fun g x => coord cast (val g.lo) (val g.hi) g.n (val x)) G p
      = cs.map (fun c => (c.1, val c.2)) := by
    apply List.ext_getElem
    · simp [cs]
    · intro k a1 a2
      have hk : k < G.length := by simp at a1; omega
      simp only [cs, List.getElem_zipWith, List.getElem_map]
      have hgk := hlt _ (List.getElem_mem hk)
      rw [coord_val cast _ _ _ _ hgk.ne]
  rw [e1]
  refine mlin_between cs (G.map Axis.n) ?_ W lo hi' (fun is his => (hW is his).2)
  rw [List.forall₂_iff_get]
  refine ⟨by simp [cs, hp], ?_⟩
  intro k a1 a2
  have hk : k < G.length := by simpa using a2
  have hg := List.getElem_mem hk
  obtain ⟨b1, b2⟩ := (List.forall₂_iff_get.1 hin).2 k (by omega) hk
  simp only [List.get_eq_getElem] at b1 b2
  have hw := norm_inside cast hcast _ _ _ _ (hlt _ hg) b1 b2 (hG.two _ hg) (n_lt hG hg)
  simp only [cs, List.get_eq_getElem, List.getElem_zipWith, List.getElem_map]
  refine ⟨coord_lt _ _ _ _ _ (hG.two _ hg), ?_⟩
  rw [coord_val cast _ _ _ _ (hlt _ hg).ne]
  exact hw

example : ∃ r, (mli [⟨0, 1, 2⟩, ⟨2, 4, 3⟩] valuesEx).interpolate trunc backwards (fun _ _ => bad)
    ⟨2, 1, fun k _ => if k = 0 then val (1 / 3) else val (7 / 2)⟩ = .ok r ∧ ∃ v, r.cell 0 0 = val v ∧ 0 ≤ v ∧ v ≤ 5 := by
  obtain ⟨r, e, _, _, h⟩ := C45_between trunc trunc_ok backwards (fun _ _ => bad) [(⟨0, 1, 2⟩ : Axis ℚ), ⟨2, 4, 3⟩]
    ⟨by decide, by decide, by decide, by decide⟩ (by decide) valuesEx
    ⟨2, 1, fun k _ => if k = 0 then val (1 / 3) else val (7 / 2)⟩ (by decide) rfl (by decide) (backwards_ok 1)
  refine ⟨r, e, ?_⟩
  refine h 0 (by decide) 0 5 ?_ 0 (by decide) [1 / 3, 7 / 2] ?_ ?_
  · intro k hk
    have hk' : k < 6 := hk
    refine ⟨k, rfl, by positivity, ?_⟩
    exact_mod_cast (by omega : k ≤ 5)
  · exact List.Forall₂.cons (by norm_num) (List.Forall₂.cons (by norm_num) List.Forall₂.nil)
  · intro k hk
    have : k = 0 ∨ k = 1 := by simp at hk; omega
    rcases this with rfl | rfl <;> rfl

/-- the call with one value row and one point fails like the first iteration of the kernel -/
theorem one_point {reorder : Nat → List Nat → List Nat} (hre : ∀ i l, (reorder i l).Perm l) (i : Nat) :
    reorder i (List.range (Int.toNat ((1 : Nat) : Int))) = [0] :=
  List.perm_singleton.1 (hre i _)

/-- **C45 needs two nodes per dimension**: nothing rejects a dimension with a single node, and the kernel then reads the
value after the last one: undefined behaviour for every point, bounds and value. -/
theorem C45_negation_one_node (cast : α → Int) (reorder : Nat → List Nat → List Nat) (hre : ∀ i l, (reorder i l).Perm l)
    (junk : Nat → Nat → α) (a b v x : α) :
    (⟨[a], [b], [1], some ⟨1, 1, fun _ _ => v⟩⟩ : MLI α).interpolate cast reorder junk ⟨1, 1, fun _ _ => x⟩
      = .error .ub := by
  unfold MLI.interpolate multilinearInterpolation
  simp only
  rw [if_neg (by omega)]
  refine loop_error (fun _ _ => True) 0 (by omega) trivial (by intro i _ hi; omega) ?_
  intro r _
  simp only [if_true, interp1d, Arr1.ofList, Arr1.rd, List.length_singleton, Nat.zero_lt_one, ok_bind]
  rw [wrap32_nat (n := 1) (by decide), one_point hre]
  simp [prange, point1d, Arr2.rd, Arr1.rd, ok_bind, wrap32, ix1, ci, Arr1.rdZ, rowView]
  rfl

/-- **C45 needs fewer than `2^31` nodes**: on a grid of `65536 × 65536` nodes (with all its values given), evaluation at
the last node computes the index `65536 * 65534` in an `int`, which overflows: undefined behaviour. -/
theorem C45_negation_huge (cast : FP K → Int) (hcast : CTrunc cast) (reorder : Nat → List Nat → List Nat)
    (hre : ∀ i l, (reorder i l).Perm l) (junk content : Nat → Nat → FP K) :
    (mli [⟨0, 1, 65536⟩, ⟨0, 1, 65536⟩] ⟨1, 65536 * 65536, content⟩).interpolate cast reorder junk
      ⟨2, 1, fun _ _ => val 1⟩ = .error .ub := by
  unfold mli MLI.interpolate multilinearInterpolation
  simp only
  rw [if_neg (by omega)]
  refine loop_error (fun _ _ => True) 0 (by omega) trivial (by intro i _ hi; omega) ?_
  intro r _
  have hc := hcast 65535 (by norm_num) (by norm_num)
  rw [if_pos (by norm_num)] at hc
  have hz : cast (val 65535) = 65535 := by
    obtain ⟨c1, c2⟩ := hc
    have d1 : cast (val (65535 : K)) ≤ 65535 := by exact_mod_cast c1
    have d2 : 65535 < cast (val (65535 : K)) + 1 := by exact_mod_cast c2
    omega
  have hpt : ∀ V : Arr1 (FP K), point2d cast (Arr1.ofList 0 [val 0, val 0]) (Arr1.ofList 0 [val 1, val 1]) V 65536 65536
      65536 ⟨2, 1, fun _ _ => val 1⟩ 0 = .error .ub := by
    intro V
    have e1 : ((val 1 : FP K) - val 0) / (val 1 - val 0) * Arith.ofInt (65536 - 1) = val 65535 := by
      simp
    simp only [point2d, Arr2.rd, Arr1.rd, Arr1.ofList, ok_bind, List.length_cons, List.length_nil, List.getD_cons_zero,
      List.getD_cons_succ]
    simp only [show 0 < 0 + 1 + 1 from by omega, show 1 < 0 + 1 + 1 from by omega, if_true, ok_bind,
      show (0 : Nat) < 2 from by omega, show (1 : Nat) < 2 from by omega, show (0 : Nat) < 1 from by omega, and_self,
      e1, hz]
    rfl
  have hk : ∀ V out : Arr1 (FP K), interp2d cast (reorder 0) (Arr1.ofList 0 [val 0, val 0]) (Arr1.ofList 0 [val 1, val 1])
      (Arr1.ofList 0 [((65536 : Nat) : Int), ((65536 : Nat) : Int)]) V (wrap32 ((1 : Nat) : Int))
      ⟨2, 1, fun _ _ => val 1⟩ out = .error .ub := by
    intro V out
    have o0 : (Arr1.ofList 0 [((65536 : Nat) : Int), ((65536 : Nat) : Int)]).cell 0 = ((65536 : Nat) : Int) := rfl
    have o1 : (Arr1.ofList 0 [((65536 : Nat) : Int), ((65536 : Nat) : Int)]).cell 1 = ((65536 : Nat) : Int) := rfl
    unfold interp2d
    rw [Arr1.rd_ok (by simp [Arr1.ofList]), ok_bind, Arr1.rd_ok (by simp [Arr1.ofList]), ok_bind, o0, o1,
      wrap32_nat (n := 65536) (by omega), wrap32_nat (n := 1) (by omega), one_point hre]
    dsimp only
    rw [prange]
    have := hpt V
    simp only [Nat.cast_ofNat]
    rw [this]
    rfl
  simp only [List.map_cons, List.map_nil]
  rw [if_neg (by omega), if_pos True.intro, hk]
  rfl

/-- **C45 needs one coordinate per dimension**: the number of dimensions is taken from the points; points with one more
coordinate than the grid has dimensions make the kernel read past the end of `orders`. -/
theorem C45_negation_dimensions (cast : α → Int) (reorder : Nat → List Nat → List Nat) (junk : Nat → Nat → α)
    (a b : α) (n : Int) (content : Nat → Nat → α) (k m : Nat) (x : Nat → Nat → α) :
    (⟨[a], [b], [n], some ⟨1, k, content⟩⟩ : MLI α).interpolate cast reorder junk ⟨2, m, x⟩ = .error .ub := by
  unfold MLI.interpolate multilinearInterpolation
  simp only
  rw [if_neg (by omega)]
  refine loop_error (fun _ _ => True) 0 (by omega) trivial (by intro i _ hi; omega) ?_
  intro r _
  rw [if_neg (by omega), if_pos True.intro]
  rfl

/-- **C45 needs all the values**: the number of values is not compared with the number of nodes; with one value missing
the kernel reads past the end of the values (here at the last of `n ≥ 2` nodes of one dimension). -/
theorem C45_negation_values (cast : FP K → Int) (hcast : CTrunc cast) (reorder : Nat → List Nat → List Nat)
    (hre : ∀ i l, (reorder i l).Perm l) (junk content : Nat → Nat → FP K) (n : Nat) (hn : 2 ≤ n) (hn' : n < 2 ^ 31) :
    (mli [⟨0, 1, n⟩] ⟨1, n - 1, content⟩).interpolate cast reorder junk ⟨1, 1, fun _ _ => val 1⟩ = .error .ub := by
  unfold mli MLI.interpolate multilinearInterpolation
  simp only
  rw [if_neg (by omega)]
  refine loop_error (fun _ _ => True) 0 (by omega) trivial (by intro i _ hi; omega) ?_
  intro r _
  have hnK : (2 : K) ≤ n := by exact_mod_cast hn
  have hnK' : (n : K) < 2 ^ 31 := by exact_mod_cast hn'
  have hc := hcast ((n : K) - 1) (by linarith [show (0 : K) ≤ 2 ^ 31 by positivity]) (by linarith)
  rw [if_pos (by linarith)] at hc
  have hz : cast (val ((n : K) - 1)) = (n : Int) - 1 := by
    obtain ⟨c1, c2⟩ := hc
    have d1 : cast (val ((n : K) - 1)) ≤ (n : Int) - 1 := by exact_mod_cast c1
    have d2 : (n : Int) - 1 < cast (val ((n : K) - 1)) + 1 := by exact_mod_cast c2
    omega
  have hpt : point1d cast (Arr1.ofList 0 [val 0]) (Arr1.ofList 0 [val 1]) (rowView ⟨1, n - 1, content⟩ 0) (n : Int)
      ⟨1, 1, fun _ _ => val 1⟩ 0 = .error .ub := by
    have e1 : ((val 1 : FP K) - val 0) / (val 1 - val 0) * Arith.ofInt ((n : Int) - 1) = val ((n : K) - 1) := by
      simp
    have e2 : max (min ((n : Int) - 1) ((n : Int) - 2)) 0 = ((n - 2 : Nat) : Int) := by omega
    have e3 : ((n - 2 : Nat) : Int) + 1 = ((n - 1 : Nat) : Int) := by omega
    simp only [point1d, Arr2.rd, Arr1.rd, Arr1.ofList, ok_bind, List.length_cons, List.length_nil, List.getD_cons_zero]
    simp only [show 0 < 0 + 1 from by omega, if_true, ok_bind, show (0 : Nat) < 1 from by omega, and_self, e1, hz, e2]
    rw [ix1, ci_nat (by omega), ok_bind, e3, ix1, ci_nat (by omega), Arr1.rdZ, if_pos (by omega), Int.toNat_natCast,
      Arr1.rd_ok (by simp [rowView]; omega), ok_bind, ok_bind, Arr1.rdZ, if_pos (by omega), Int.toNat_natCast, Arr1.rd,
      if_neg (by simp [rowView])]
    rfl
  simp only [List.map_cons, List.map_nil]
  rw [if_pos True.intro]
  have o0 : (Arr1.ofList 0 [(n : Int)]).cell 0 = (n : Int) := rfl
  unfold interp1d
  rw [Arr1.rd_ok (by simp [Arr1.ofList]), ok_bind, o0, wrap32_nat hn', wrap32_nat (n := 1) (by omega), one_point hre,
    prange, hpt]
  rfl

end C45

/-! ### C46 -/

section C46
variable {α : Type} [Arith α]

theorem loop_mono {σ : Type} {n : Nat} {b1 b2 : Nat → σ → Except Err σ} (h : ∀ i s s', b1 i s = .ok s' → b2 i s = .ok s')
    {s r : σ} (hr : loop n b1 s = .ok r) : loop n b2 s = .ok r := by
  induction n generalizing r with
  | zero => exact hr
  | succ n ih =>
    unfold loop at hr ⊢
    cases h1 : loop n b1 s with
    | error e => rw [h1] at hr; cases hr
    | ok s1 =>
      rw [h1] at hr
      rw [ih h1]
      exact h _ _ _ hr

/-- **C46 (schedule)**: whatever the shapes and contents of the arrays: if the call succeeds with one order of the
parallel iterations, it succeeds with every order and returns the same array. -/
theorem C46_schedule (cast : α → Int) (reorder reorder' : Nat → List Nat → List Nat) (hre : ∀ i l, (reorder i l).Perm l)
    (hre' : ∀ i l, (reorder' i l).Perm l) (junk : Nat → Nat → α) (m : MLI α) (s r : Arr2 α)
    (h : m.interpolate cast reorder junk s = .ok r) : m.interpolate cast reorder' junk s = .ok r := by
  unfold MLI.interpolate at h ⊢
  cases hv : m.values with
  | none => rw [hv] at h; cases h
  | some v =>
    rw [hv] at h
    simp only at h ⊢
    unfold multilinearInterpolation at h ⊢
    simp only at h ⊢
    by_cases hd : s.rows > 4
    · rw [if_pos hd] at h; cases h
    · rw [if_neg hd] at h ⊢
      refine loop_mono ?_ h
      intro i st st' hst
      have hperm : ∀ l, (reorder i l).Perm (reorder' i l) := fun l => (hre i l).trans (hre' i l).symm
      have bindmono : ∀ {e e' : Except Err (Arr1 α)}, (∀ x, e = .ok x → e' = .ok x) →
          (e >>= fun res => Except.ok (setRow st i res)) = .ok st' →
          (e' >>= fun res => Except.ok (setRow st i res)) = .ok st' := by
        intro e e' he hh
        cases e with
        | error _ => cases hh
        | ok x => rw [he x rfl]; exact hh
      split_ifs at hst ⊢ with c1 c2 c3 c4
      · refine bindmono ?_ hst
        intro x hx
        unfold interp1d at hx ⊢
        cases h0 : (Arr1.ofList (0 : Int) m.orders).rd 0 with
        | error e => rw [h0] at hx; cases hx
        | ok o0 =>
          rw [h0, ok_bind] at hx
          rw [ok_bind]
          exact prange_perm_eq _ _ _ (hperm _) _ _ hx
      · refine bindmono ?_ hst
        intro x hx
        unfold interp2d at hx ⊢
        cases h0 : (Arr1.ofList (0 : Int) m.orders).rd 0 with
        | error e => rw [h0] at hx; cases hx
        | ok o0 =>
        cases h1 : (Arr1.ofList (0 : Int) m.orders).rd 1 with
        | error e => rw [h0, h1] at hx; cases hx
        | ok o1 =>
          rw [h0, h1, ok_bind, ok_bind] at hx
          rw [ok_bind, ok_bind]
          exact prange_perm_eq _ _ _ (hperm _) _ _ hx
      · refine bindmono ?_ hst
        intro x hx
        unfold interp3d at hx ⊢
        cases h0 : (Arr1.ofList (0 : Int) m.orders).rd 0 with
        | error e => rw [h0] at hx; cases hx
        | ok o0 =>
        cases h1 : (Arr1.ofList (0 : Int) m.orders).rd 1 with
        | error e => rw [h0, h1] at hx; cases hx
        | ok o1 =>
        cases h2 : (Arr1.ofList (0 : Int) m.orders).rd 2 with
        | error e => rw [h0, h1, h2] at hx; cases hx
        | ok o2 =>
          rw [h0, h1, h2, ok_bind, ok_bind, ok_bind] at hx
          rw [ok_bind, ok_bind, ok_bind]
          dsimp only at hx ⊢
          cases h3 : ci (wrap32 o1 * wrap32 o2) with
          | error e => rw [h3] at hx; cases hx
          | ok M0 =>
            rw [h3, ok_bind] at hx
            rw [ok_bind]
            exact prange_perm_eq _ _ _ (hperm _) _ _ hx
      · refine bindmono ?_ hst
        intro x hx
        unfold interp4d at hx ⊢
        cases h0 : (Arr1.ofList (0 : Int) m.orders).rd 0 with
        | error e => rw [h0] at hx; cases hx
        | ok o0 =>
        cases h1 : (Arr1.ofList (0 : Int) m.orders).rd 1 with
        | error e => rw [h0, h1] at hx; cases hx
        | ok o1 =>
        cases h2 : (Arr1.ofList (0 : Int) m.orders).rd 2 with
        | error e => rw [h0, h1, h2] at hx; cases hx
        | ok o2 =>
        cases h3 : (Arr1.ofList (0 : Int) m.orders).rd 3 with
        | error e => rw [h0, h1, h2, h3] at hx; cases hx
        | ok o3 =>
          rw [h0, h1, h2, h3, ok_bind, ok_bind, ok_bind, ok_bind] at hx
          rw [ok_bind, ok_bind, ok_bind, ok_bind]
          dsimp only at hx ⊢
          cases h4 : ci (wrap32 o1 * wrap32 o2) with
          | error e => rw [h4] at hx; cases hx
          | ok M =>
          rw [h4, ok_bind] at hx
          rw [ok_bind]
          cases h5 : ci (M * wrap32 o3) with
          | error e => rw [h5] at hx; cases hx
          | ok M0 =>
          rw [h5, ok_bind] at hx
          rw [ok_bind]
          cases h6 : ci (wrap32 o2 * wrap32 o3) with
          | error e => rw [h6] at hx; cases hx
          | ok M1 =>
            rw [h6, ok_bind] at hx
            rw [ok_bind]
            exact prange_perm_eq _ _ _ (hperm _) _ _ hx
      · exact hst

/-- **C46 (rows)**: each row of the result depends only on its own value row (and on the grid and the points): two sets of
value rows, of any sizes, two schedules and two contents of the uninitialised result array: where the value rows agree, the
result rows agree. -/
theorem C46_own_row (cast : α → Int) (reorder reorder' : Nat → List Nat → List Nat) (junk junk' : Nat → Nat → α)
    (smin smax : List α) (ns : List Nat) (h1 : 1 ≤ ns.length) (h4 : ns.length ≤ 4)
    (h2 : ∀ n ∈ ns, 2 ≤ n) (ht : ns.prod < 2 ^ 31) (hmin : smin.length = ns.length) (hmax : smax.length = ns.length)
    (values values' : Arr2 α) (hV : values.cols = ns.prod) (hV' : values'.cols = ns.prod) (s : Arr2 α)
    (hs : s.rows = ns.length) (hn : s.cols < 2 ^ 31)
    (hre : ∀ i, (reorder i (List.range s.cols)).Perm (List.range s.cols))
    (hre' : ∀ i, (reorder' i (List.range s.cols)).Perm (List.range s.cols)) :
    ∃ r r', (⟨smin, smax, ns.map (fun (n : Nat) => (n : Int)), some values⟩ : MLI α).interpolate cast reorder junk s = .ok r ∧
      (⟨smin, smax, ns.map (fun (n : Nat) => (n : Int)), some values'⟩ : MLI α).interpolate cast reorder' junk' s = .ok r' ∧
      ∀ i < values.rows, ∀ i' < values'.rows, (∀ k < ns.prod, values.cell i k = values'.cell i' k) →
        ∀ j < s.cols, r.cell i j = r'.cell i' j := by
  have hz : Sized (Arr1.ofList 0 smin) (Arr1.ofList 0 smax) (Arr1.ofList 0 (ns.map (fun (n : Nat) => (n : Int)))) ns := by
    refine ⟨by simpa [Arr1.ofList] using hmin, by simpa [Arr1.ofList] using hmax, by simp [Arr1.ofList], ?_, h2, ht⟩
    intro k hk
    simp [Arr1.ofList, List.getD, List.getElem?_eq_getElem hk]
  obtain ⟨r, e, a1, a2, a3⟩ := multi_ok cast reorder junk _ _ _ ns values s hz h1 h4 hs hn (by omega) hre
  obtain ⟨r', e', b1, b2, b3⟩ := multi_ok cast reorder' junk' _ _ _ ns values' s hz h1 h4 hs hn (by omega) hre'
  refine ⟨r, r', e, e', ?_⟩
  intro i hi i' hi' hk j hj
  rw [a3 i hi j hj, b3 i' hi' j hj]
  refine mlin_congr _ ns (coords_lt _ _ _ _ _ h2) _ _ ?_
  intro is his
  exact hk _ (ravel_lt _ _ his)

/-- **C46 (dimensions)**: points with more than four coordinates raise, whatever the grid. -/
theorem C46_too_many (cast : α → Int) (reorder : Nat → List Nat → List Nat) (junk : Nat → Nat → α) (m : MLI α)
    (values : Arr2 α) (hv : m.values = some values) (s : Arr2 α) (hs : 4 < s.rows) :
    m.interpolate cast reorder junk s = .error .exception := by
  unfold MLI.interpolate multilinearInterpolation
  rw [hv]
  exact if_pos hs

example : ∃ r r', (mli gridEx valuesEx).interpolate trunc (fun _ l => l) (fun _ _ => bad) ⟨2, 3, fun _ _ => val (1 / 2)⟩
      = .ok r ∧ (mli gridEx ⟨2, 6, fun i k => if i = 0 then bad else val k⟩).interpolate trunc backwards (fun _ _ => val 7)
      ⟨2, 3, fun _ _ => val (1 / 2)⟩ = .ok r' ∧ ∀ j < 3, r.cell 0 j = r'.cell 1 j := by
  obtain ⟨r, r', h1, h2, h3⟩ := C46_own_row trunc (fun _ l => l) backwards (fun _ _ => bad) (fun _ _ => val 7)
    [val 0, val 4] [val 1, val 2] [2, 3] (by decide) (by decide) (by decide) (by decide) rfl rfl valuesEx
    ⟨2, 6, fun i k => if i = 0 then bad else val k⟩ rfl rfl ⟨2, 3, fun _ _ => val (1 / 2)⟩ rfl (by decide)
    (fun _ => List.Perm.refl _) (backwards_ok 3)
  exact ⟨r, r', h1, h2, fun j hj => h3 0 (by decide) 1 (by decide) (fun k _ => rfl) j hj⟩

example : ∃ r, (mli gridEx valuesEx).interpolate trunc backwards (fun _ _ => bad) ⟨2, 2, fun _ _ => val 1⟩ = .ok r ∧
    (mli gridEx valuesEx).interpolate trunc (fun _ l => l) (fun _ _ => bad) ⟨2, 2, fun _ _ => val 1⟩ = .ok r := by
  obtain ⟨r, e, _, _⟩ := C45_in_bounds trunc backwards (fun _ _ => bad) (mli gridEx valuesEx) [2, 3] rfl (by decide)
    (by decide) (by decide) (by decide) rfl rfl valuesEx rfl rfl ⟨2, 2, fun _ _ => val 1⟩ rfl (by decide) (backwards_ok 2)
  exact ⟨r, e, C46_schedule trunc backwards (fun _ l => l) (fun _ l => List.reverse_perm l) (fun _ _ => List.Perm.refl _)
    _ _ _ _ e⟩

/-- **beyond C46**: with `2^31` points the point count wraps to a negative `int`, no iteration runs, and the call returns
the uninitialised array (one dimension). -/
theorem C46_negation_points (cast : α → Int) (reorder : Nat → List Nat → List Nat) (hre : ∀ i l, (reorder i l).Perm l)
    (junk : Nat → Nat → α) (a b : α) (n : Int) (values : Arr2 α) (x : Nat → Nat → α) :
    (⟨[a], [b], [n], some values⟩ : MLI α).interpolate cast reorder junk ⟨1, 2 ^ 31, x⟩
      = .ok ⟨values.rows, 2 ^ 31, junk⟩ := by
  have hw : wrap32 ((2 ^ 31 : Nat) : Int) = -2 ^ 31 := by decide
  unfold MLI.interpolate multilinearInterpolation
  simp only
  rw [if_neg (by omega), hw]
  obtain ⟨r, e, rfl⟩ := loop_ok (n := values.rows) (s := (⟨values.rows, 2 ^ 31, junk⟩ : Arr2 α))
    (body := fun i result => (if True then do
        let res ← interp1d cast (reorder i) (Arr1.ofList 0 [a]) (Arr1.ofList 0 [b]) (Arr1.ofList 0 [n]) (rowView values i)
          (-2 ^ 31) ⟨1, 2 ^ 31, x⟩ (rowView result i)
        Except.ok (setRow result i res)
      else .error .ub)) (fun _ r => r = ⟨values.rows, 2 ^ 31, junk⟩) rfl (by
      rintro i r hi rfl
      refine ⟨_, ?_, rfl⟩
      have hp : reorder i [] = [] := List.perm_nil.1 (hre i [])
      rw [if_pos True.intro]
      unfold interp1d
      rw [Arr1.rd_ok (by simp [Arr1.ofList]), ok_bind, show (-2 ^ 31 : Int).toNat = 0 from by omega, List.range_zero, hp,
        prange, ok_bind]
      congr 1
      unfold setRow rowView
      congr 1
      funext i' j'
      by_cases h : i' = i
      · subst h; simp
      · simp [h])
  exact e

/-- **beyond C46**: points with no coordinate at all are accepted, and the call returns the uninitialised array. -/
theorem C46_negation_no_dimension (cast : α → Int) (reorder : Nat → List Nat → List Nat) (junk : Nat → Nat → α)
    (values : Arr2 α) (n : Nat) (x : Nat → Nat → α) :
    ∃ r, (⟨[], [], [], some values⟩ : MLI α).interpolate cast reorder junk ⟨0, n, x⟩ = .ok r ∧ r.cell = junk := by
  unfold MLI.interpolate multilinearInterpolation
  simp only
  rw [if_neg (by omega)]
  obtain ⟨r, e, h⟩ := loop_ok (n := values.rows) (s := (⟨values.rows, n, junk⟩ : Arr2 α))
    (body := fun i result => Except.ok (setRow result i (rowView result i))) (fun _ r => r.cell = junk) rfl (by
      intro i r hi hr
      refine ⟨_, rfl, ?_⟩
      simp only [setRow, rowView]
      funext i' j'
      by_cases h : i' = i
      · subst h; simp [hr]
      · simp [h, hr])
  exact ⟨r, e, h⟩

end C46

end Verif.Props
