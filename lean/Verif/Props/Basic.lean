import Verif.Model.Basic
import Verif.Spec.Interpolator
import Verif.Props.Presets

/-!
# C47: `BasicSatelliteInterpolator`
-/

set_option linter.unusedSectionVars false

namespace Verif.Basic
open Verif Verif.Interpolator Verif.Spec FP

variable {K : Type} [Field K] [LinearOrder K] [IsStrictOrderedRing K]

@[simp] theorem nan_eq : (nan : FP K) = bad := by simp [nan]
@[simp] theorem known_val (a : K) : known (val a : FP K) = true := by simp [known]
@[simp] theorem known_bad : known (bad : FP K) = false := by simp [known]

theorem prevKnown_eq {col : List (FP K)} {p : Nat} (hp : known (col.getD p nan) = true) (i : Nat) (hpi : p ≤ i)
    (hbetween : ∀ k, p < k → k ≤ i → known (col.getD k nan) = false) : prevKnown col i = some p := by
  induction i with
  | zero =>
    have : p = 0 := by omega
    subst this
    unfold prevKnown
    rw [if_pos hp]
  | succ i ih =>
    unfold prevKnown
    rcases Nat.lt_or_ge p (i + 1) with h | h
    · rw [if_neg (by rw [hbetween (i + 1) h (le_refl _)]; simp)]
      exact ih (by omega) (fun k h1 h2 => hbetween k h1 (by omega))
    · have : p = i + 1 := by omega
      subst this
      rw [if_pos hp]

theorem prevKnown_none {col : List (FP K)} (i : Nat) (h : ∀ k ≤ i, known (col.getD k nan) = false) :
    prevKnown col i = none := by
  induction i with
  | zero =>
    unfold prevKnown
    rw [if_neg (by rw [h 0 (le_refl _)]; simp)]
  | succ i ih =>
    unfold prevKnown
    rw [if_neg (by rw [h (i + 1) (le_refl _)]; simp)]
    exact ih (fun k hk => h k (by omega))

theorem nextKnown_eq {col : List (FP K)} {q : Nat} (hq : known (col.getD q nan) = true) (n i : Nat) (hiq : i ≤ q)
    (hn : q < i + n) (hbetween : ∀ k, i ≤ k → k < q → known (col.getD k nan) = false) : nextKnown col i n = some q := by
  induction n generalizing i with
  | zero => omega
  | succ n ih =>
    unfold nextKnown
    rcases Nat.lt_or_ge i q with h | h
    · rw [if_neg (by rw [hbetween i (le_refl _) h]; simp)]
      exact ih (i + 1) (by omega) (by omega) (fun k h1 h2 => hbetween k (by omega) h2)
    · have : i = q := by omega
      subst this
      rw [if_pos hq]

theorem nextKnown_none {col : List (FP K)} (n i : Nat) (h : ∀ k, i ≤ k → known (col.getD k nan) = false) :
    nextKnown col i n = none := by
  induction n generalizing i with
  | zero => rfl
  | succ n ih =>
    unfold nextKnown
    rw [if_neg (by rw [h i (le_refl _)]; simp)]
    exact ih (i + 1) (fun k hk => h k (by omega))

/-- between two neighbouring numbers: the straight line -/
theorem seriesAt_line {col : List (FP K)} {p q i : Nat} {a b : K} (hp : col.getD p nan = val a) (hq : col.getD q nan = val b)
    (hpq : p < q) (hql : q < col.length) (h1 : p ≤ i) (h2 : i ≤ q)
    (hbetween : ∀ k, p < k → k < q → col.getD k nan = bad) :
    seriesAt col i = val (lineThrough (p : K) a q b i) := by
  have hne : (q : K) - p ≠ 0 := by
    have : (p : K) < q := by exact_mod_cast hpq
    exact sub_ne_zero.mpr (ne_of_gt this)
  have kp : known (col.getD p nan) = true := by rw [hp]; simp
  have kq : known (col.getD q nan) = true := by rw [hq]; simp
  have kb : ∀ k, p < k → k < q → known (col.getD k nan) = false := by
    intro k h1 h2; rw [hbetween k h1 h2]; simp
  unfold seriesAt
  rcases Nat.eq_or_lt_of_le h2 with h | h
  · subst h
    rw [prevKnown_eq kq i (le_refl _) (by intro k h1 h2; omega)]
    simp only [if_true]
    rw [hq]
    unfold lineThrough
    congr 1
    field_simp
    ring
  · rw [prevKnown_eq kp i h1 (fun k h1 h2 => kb k h1 (by omega))]
    simp only
    rcases Nat.eq_or_lt_of_le h1 with h' | h'
    · rw [if_pos h', ← h', hp]
      unfold lineThrough
      simp
    · rw [if_neg (by omega), nextKnown_eq kq _ i h2 (by omega) (fun k h1 h2 => kb k (by omega) h2)]
      simp only [hp, hq, ofInt_eq, val_sub, Int.cast_natCast]
      rw [val_div_of_ne _ hne, val_mul, val_add]
      congr 1
      unfold lineThrough
      field_simp
      ring

/-- a number stays -/
theorem seriesAt_known {col : List (FP K)} {i : Nat} {a : K} (h : col.getD i nan = val a) : seriesAt col i = val a := by
  unfold seriesAt
  rw [prevKnown_eq (p := i) (by rw [h]; simp) i (le_refl _) (by intro k h1 h2; omega)]
  simp only [if_true]
  exact h

/-- before the first number: NaN -/
theorem seriesAt_before {col : List (FP K)} {i : Nat} (h : ∀ k ≤ i, col.getD k nan = bad) : seriesAt col i = bad := by
  unfold seriesAt
  rw [prevKnown_none i (fun k hk => by rw [h k hk]; simp)]
  simp

/-! ### reindexing with increasing labels -/

/-- labels -/
def labels (l : List Nat) : List Int := l.map (fun (n : Nat) => (n : Int))

theorem labels_nodup {l : List Nat} (h : l.Pairwise (· < ·)) : (labels l).Nodup := by
  unfold labels
  refine List.Nodup.map ?_ (h.imp ne_of_lt)
  intro a b hab
  have : (a : Int) = b := hab
  exact_mod_cast this

theorem idxOf_labels {l : List Nat} (h : l.Pairwise (· < ·)) (k : Nat) (hk : k < l.length) :
    (labels l).idxOf? ((l.getD k 0 : Nat) : Int) = some k := by
  have hn := labels_nodup h
  have hk' : k < (labels l).length := by simp [labels, hk]
  have e : ((l.getD k 0 : Nat) : Int) = (labels l)[k] := by simp [labels, hk]
  rw [e]
  rw [List.idxOf?_eq_some_iff]
  refine ⟨hk', rfl, ?_⟩
  intro j hj he
  have := (List.Nodup.getElem_inj_iff hn).mp he
  omega

theorem idxOf_labels_none {l : List Nat} {i : Nat} (h : i ∉ l) : (labels l).idxOf? (i : Int) = none := by
  rw [List.idxOf?_eq_none_iff]
  intro hm
  obtain ⟨n, hn, he⟩ := List.mem_map.mp hm
  have : n = i := by exact_mod_cast he
  exact h (this ▸ hn)

theorem mono_getD {l : List Nat} (h : l.Pairwise (· < ·)) {a b : Nat} (hab : a < b) (hb : b < l.length) :
    l.getD a 0 < l.getD b 0 := by
  have := List.pairwise_iff_getElem.mp h a b (by omega) hb hab
  simpa [List.getD, List.getElem?_eq_getElem hb, List.getElem?_eq_getElem (show a < l.length by omega)] using this

theorem mem_getD {l : List Nat} {i : Nat} (h : i ∈ l) : ∃ a < l.length, l.getD a 0 = i := by
  obtain ⟨a, ha, e⟩ := List.getElem_of_mem h
  exact ⟨a, ha, by simp [ha, e]⟩

/-- the segment a position lies in -/
theorem exists_segment {l : List Nat} (h0 : l.getD 0 0 = 0) (hne : l ≠ []) (i : Nat) :
    ∃ a < l.length, l.getD a 0 ≤ i ∧ (a + 1 = l.length ∨ i < l.getD (a + 1) 0) := by
  have hlen : 0 < l.length := List.length_pos_iff.mpr hne
  have key : ∀ m, m < l.length → (∃ a < l.length, l.getD a 0 ≤ i ∧ (a + 1 = l.length ∨ i < l.getD (a + 1) 0)) ∨ l.getD m 0 ≤ i := by
    intro m
    induction m with
    | zero => intro _; right; omega
    | succ m ih =>
      intro hm
      rcases ih (by omega) with h | h
      · exact Or.inl h
      · rcases Nat.lt_or_ge i (l.getD (m + 1) 0) with h' | h'
        · exact Or.inl ⟨m, by omega, h, Or.inr h'⟩
        · exact Or.inr h'
  rcases key (l.length - 1) (by omega) with h | h
  · exact h
  · exact ⟨l.length - 1, by omega, h, Or.inl (by omega)⟩

/-- the column of a frame at a position -/
theorem reindexed_getD {indices : List Int} {data : Mat (FP K)} {n j i : Nat} (hi : i < n) :
    (reindexed indices data n j).getD i nan = match indices.idxOf? (i : Int) with
      | some k => (data.getD k []).getD j nan
      | none => nan := by
  simp only [reindexed, List.getD_eq_getElem?_getD, List.getElem?_map, List.getElem?_range hi, Option.map_some, Option.getD_some]
  cases indices.idxOf? (i : Int) <;> rfl

theorem last_labels {l : List Nat} (h : l ≠ []) : (labels l).getLast? = some ((l.getD (l.length - 1) 0 : Nat) : Int) := by
  have hl : l.length - 1 < l.length := by
    have := List.length_pos_iff.mpr h; omega
  rw [labels, List.getLast?_map, List.getLast?_eq_getElem?, List.getElem?_eq_getElem hl]
  simp [hl]

/-- one pass over data of numbers -/
theorem pandasInterp_ok {l : List Nat} (h : l.Pairwise (· < ·)) (hne : l ≠ []) (w : Nat) (data : Mat (FP K))
    (hd : data.length = l.length) (hw : ∀ r ∈ data, r.length = w) (hn : ∀ r ∈ data, ∀ v ∈ r, IsNum v) :
    ∃ out, pandasInterp (labels l) w data = .ok (l.getD (l.length - 1) 0 + 1, out) ∧
      out.length = w ∧ (∀ r ∈ out, r.length = l.getD (l.length - 1) 0 + 1) ∧
      (∀ j < w, ∀ a < l.length, (out.getD j []).getD (l.getD a 0) nan = (data.getD a []).getD j nan) ∧
      (∀ i j a, j < w → a + 1 < l.length → l.getD a 0 ≤ i → i ≤ l.getD (a + 1) 0 → ∃ x y : K,
        (data.getD a []).getD j nan = val x ∧ (data.getD (a + 1) []).getD j nan = val y ∧
        (out.getD j []).getD i nan = val (lineThrough ((l.getD a 0 : Nat) : K) x ((l.getD (a + 1) 0 : Nat) : K) y i)) ∧
      (∀ i j, j < w → i < l.getD 0 0 → (out.getD j []).getD i nan = bad) := by
  have hlen : 0 < l.length := List.length_pos_iff.mpr hne
  set n := l.getD (l.length - 1) 0 + 1 with hnn
  have hle : ∀ a < l.length, l.getD a 0 < n := by
    intro a ha
    rcases Nat.lt_or_ge a (l.length - 1) with h' | h'
    · have := mono_getD h h' (by omega); omega
    · rw [show a = l.length - 1 by omega]; omega
  have hcell : ∀ j < w, ∀ a < l.length, ∃ x : K, (data.getD a []).getD j nan = val x := by
    intro j hj a ha
    have hr : data.getD a [] ∈ data := by
      simp [List.getD, List.getElem?_eq_getElem (show a < data.length by omega)]
    have hrl := hw _ hr
    have hv : (data.getD a []).getD j nan ∈ data.getD a [] := by
      generalize data.getD a [] = r at hrl
      simp [List.getD, List.getElem?_eq_getElem (show j < r.length by omega)]
    exact hn _ hr _ hv
  have htie : ∀ j, ∀ a < l.length, (reindexed (labels l) data n j).getD (l.getD a 0) nan = (data.getD a []).getD j nan := by
    intro j a ha
    rw [reindexed_getD (hle a ha), idxOf_labels h a ha]
  have hgap : ∀ j k, k < n → k ∉ l → (reindexed (labels l) data n j).getD k nan = bad := by
    intro j k hk hm
    rw [reindexed_getD hk, idxOf_labels_none hm]
    simp
  have hcl : ∀ j, (reindexed (labels l) data n j).length = n := by intro j; simp [reindexed]
  have hget : ∀ i j, i < n → j < w → (((List.range w).map (fun j => seriesInterp (reindexed (labels l) data n j))).getD j []).getD i nan
      = seriesAt (reindexed (labels l) data n j) i := by
    intro i j hi hj
    simp [hj, seriesInterp, hcl, hi]
  refine ⟨(List.range w).map (fun j => seriesInterp (reindexed (labels l) data n j)), ?_, by simp, ?_, ?_, ?_, ?_⟩
  · unfold pandasInterp
    rw [last_labels hne]
    simp only
    rw [if_neg (by simp [labels, hd]), if_neg (by simp [labels_nodup h])]
    have : ((((l.getD (l.length - 1) 0 : Nat) : Int)) + 1).toNat = n := by omega
    rw [this]
  · intro r hr
    obtain ⟨j, _, rfl⟩ := List.mem_map.mp hr
    simp [seriesInterp, hcl]
  · intro j hj a ha
    obtain ⟨x, hx⟩ := hcell j hj a ha
    rw [hget _ _ (hle a ha) hj, seriesAt_known (a := x) (by rw [htie j a ha, hx]), hx]
  · intro i j a hj ha h1 h2
    obtain ⟨x, hx⟩ := hcell j hj a (by omega)
    obtain ⟨y, hy⟩ := hcell j hj (a + 1) ha
    have hlt := mono_getD h (show a < a + 1 by omega) ha
    have hlt' := hle (a + 1) ha
    refine ⟨x, y, hx, hy, ?_⟩
    rw [hget _ _ (by omega) hj]
    refine seriesAt_line (by rw [htie j a (by omega), hx]) (by rw [htie j (a + 1) ha, hy]) hlt (by rw [hcl]; omega) h1 h2 ?_
    intro k k1 k2
    refine hgap j k (by omega) ?_
    intro hm
    obtain ⟨c, hc, e⟩ := mem_getD hm
    rcases Nat.lt_trichotomy c a with g | g | g
    · have := mono_getD h g (by omega); omega
    · subst g; omega
    · rcases Nat.eq_or_lt_of_le (show a + 1 ≤ c by omega) with g' | g'
      · subst g'; omega
      · have := mono_getD h g' hc; omega
  · intro i j hj hi
    have h0 := hle 0 hlen
    rw [hget _ _ (by omega) hj]
    refine seriesAt_before (fun k hk => hgap j k (by omega) ?_)
    intro hm
    obtain ⟨c, hc, e⟩ := mem_getD hm
    rcases Nat.eq_zero_or_pos c with g | g
    · subst g; omega
    · have := mono_getD h g hc; omega

/-- with a first label 0 all values of the pass are numbers -/
theorem pass_num {l : List Nat} {w : Nat} {data out : Mat (FP K)} (hne : l ≠ []) (h0 : l.getD 0 0 = 0)
    (hd : data.length = l.length) (hw : ∀ r ∈ data, r.length = w) (hn : ∀ r ∈ data, ∀ v ∈ r, IsNum v)
    (h1 : out.length = w) (h2 : ∀ r ∈ out, r.length = l.getD (l.length - 1) 0 + 1)
    (h3 : ∀ j < w, ∀ a < l.length, (out.getD j []).getD (l.getD a 0) nan = (data.getD a []).getD j nan)
    (h4 : ∀ i j a, j < w → a + 1 < l.length → l.getD a 0 ≤ i → i ≤ l.getD (a + 1) 0 → ∃ x y : K,
        (data.getD a []).getD j nan = val x ∧ (data.getD (a + 1) []).getD j nan = val y ∧
        (out.getD j []).getD i nan = val (lineThrough ((l.getD a 0 : Nat) : K) x ((l.getD (a + 1) 0 : Nat) : K) y i)) :
    ∀ r ∈ out, ∀ v ∈ r, IsNum v := by
  intro r hr v hv
  obtain ⟨j, hj, rfl⟩ := List.getElem_of_mem hr
  obtain ⟨i, hi, rfl⟩ := List.getElem_of_mem hv
  have hl := h2 _ hr
  have e : (out.getD j []).getD i nan = out[j][i] := by simp [hj, hi]
  rw [← e]
  obtain ⟨a, ha, ha1, ha2⟩ := exists_segment h0 hne i
  rcases ha2 with ha2 | ha2
  · have : i = l.getD a 0 := by
      rw [show l.length - 1 = a by omega] at hl; omega
    rw [this, h3 j (by omega) a ha]
    have hr' : data.getD a [] ∈ data := by
      simp [List.getD, List.getElem?_eq_getElem (show a < data.length by omega)]
    have hrl := hw _ hr'
    refine hn _ hr' _ ?_
    generalize data.getD a [] = r at hrl
    simp [List.getD, List.getElem?_eq_getElem (show j < r.length by omega)]
  · rcases Nat.lt_or_ge (a + 1) l.length with g | g
    · obtain ⟨x, y, _, _, e⟩ := h4 i j a (by omega) g ha1 ha2.le
      rw [e]; exact isNum_val _
    · have : l.getD (a + 1) 0 = 0 := by simp [show l.length ≤ a + 1 from g]
      omega

end Verif.Basic

namespace Verif.Props
open Verif Verif.Interpolator Verif.Spec Verif.Basic FP

variable {K : Type} [Field K] [LinearOrder K] [IsStrictOrderedRing K]

/-- what C47 promises of one result array: last label + 1 rows and columns; the tie data at the tie positions; straight
lines between neighbouring tie rows on each tie column, and between neighbouring tie columns on every row -/
def BasicResult (rs cs : List Nat) (d : List (List K)) (out : Mat (FP K)) : Prop :=
  Shape (rs.getD (rs.length - 1) 0 + 1) (cs.getD (cs.length - 1) 0 + 1) out ∧
  (∀ a < rs.length, ∀ b < cs.length, el (row out (rs.getD a 0)) (cs.getD b 0) = val ((d.getD a []).getD b 0)) ∧
  (∀ i a b : Nat, a + 1 < rs.length → b < cs.length → rs.getD a 0 ≤ i → i ≤ rs.getD (a + 1) 0 →
    el (row out i) (cs.getD b 0) = val (lineThrough ((rs.getD a 0 : Nat) : K) ((d.getD a []).getD b 0)
      ((rs.getD (a + 1) 0 : Nat) : K) ((d.getD (a + 1) []).getD b 0) i)) ∧
  (∀ i j b : Nat, i ≤ rs.getD (rs.length - 1) 0 → b + 1 < cs.length → cs.getD b 0 ≤ j → j ≤ cs.getD (b + 1) 0 →
    ∃ x y : K, el (row out i) (cs.getD b 0) = val x ∧ el (row out i) (cs.getD (b + 1) 0) = val y ∧
      el (row out i) j = val (lineThrough ((cs.getD b 0 : Nat) : K) x ((cs.getD (b + 1) 0 : Nat) : K) y j))

theorem el_row_eq {a b : Nat} {m : Mat (FP K)} (h : Shape a b m) {i j : Nat} (hi : i < a) (hj : j < b) :
    el (row m i) j = (m.getD i []).getD j nan := by
  have h1 : i < m.length := by rw [h.1]; exact hi
  have h2 : j < m[i].length := by rw [h.2 _ (List.getElem_mem _)]; exact hj
  simp [el, row, h1, h2]

theorem basic_interp {rs cs : List Nat} (hr : rs.Pairwise (· < ·)) (hr0 : rs.getD 0 0 = 0) (hrn : rs ≠ [])
    (hc : cs.Pairwise (· < ·)) (hcn : cs ≠ []) (d : List (List K)) (hd : Shape rs.length cs.length d) :
    ∃ out, interp true (labels rs) (labels cs) cs.length (numMat d) = .ok out ∧ BasicResult rs cs d out ∧
      ∀ i j : Nat, i ≤ rs.getD (rs.length - 1) 0 → j < cs.getD 0 0 → el (row out i) j = bad := by
  have hlr : 0 < rs.length := List.length_pos_iff.mpr hrn
  have hlc : 0 < cs.length := List.length_pos_iff.mpr hcn
  have hdl : (numMat d).length = rs.length := by rw [numMat, List.length_map, hd.1]
  have hdw : ∀ r ∈ numMat d, r.length = cs.length := by
    intro r hr
    obtain ⟨r', hr', rfl⟩ := List.mem_map.mp hr
    rw [List.length_map]; exact hd.2 _ hr'
  have hdn : ∀ r ∈ numMat d, ∀ v ∈ r, IsNum v := by
    intro r hr v hv
    obtain ⟨r', _, rfl⟩ := List.mem_map.mp hr
    obtain ⟨x, _, rfl⟩ := List.mem_map.mp hv
    exact isNum_val _
  have hdv : ∀ a < rs.length, ∀ b < cs.length, ((numMat d).getD a []).getD b nan = val ((d.getD a []).getD b 0) := by
    intro a ha b hb
    have h1 : a < d.length := by rw [hd.1]; exact ha
    have h2 : b < d[a].length := by rw [hd.2 _ (List.getElem_mem _)]; exact hb
    simp [numMat, h1, h2]
  obtain ⟨o1, e1, l1, w1, t1, s1, _⟩ := pandasInterp_ok hr hrn cs.length (numMat d) hdl hdw hdn
  have n1 := pass_num hrn hr0 hdl hdw hdn l1 w1 t1 s1
  obtain ⟨o2, e2, l2, w2, t2, s2, b2⟩ := pandasInterp_ok hc hcn (rs.getD (rs.length - 1) 0 + 1) o1 l1 w1 n1
  have sh : Shape (rs.getD (rs.length - 1) 0 + 1) (cs.getD (cs.length - 1) 0 + 1) o2 := ⟨l2, w2⟩
  have hcl : ∀ b < cs.length, cs.getD b 0 < cs.getD (cs.length - 1) 0 + 1 := by
    intro b hb
    rcases Nat.lt_or_ge b (cs.length - 1) with h' | h'
    · have := mono_getD hc h' (by omega); omega
    · rw [show b = cs.length - 1 by omega]; omega
  have hrl : ∀ b < rs.length, rs.getD b 0 < rs.getD (rs.length - 1) 0 + 1 := by
    intro b hb
    rcases Nat.lt_or_ge b (rs.length - 1) with h' | h'
    · have := mono_getD hr h' (by omega); omega
    · rw [show b = rs.length - 1 by omega]; omega
  refine ⟨o2, ?_, ⟨sh, ?_, ?_, ?_⟩, ?_⟩
  · unfold interp
    rw [e1]
    simp only [Bool.not_true, Bool.false_eq_true, if_false]
    rw [e2]
  · intro a ha b hb
    rw [el_row_eq sh (hrl a ha) (hcl b hb), t2 _ (hrl a ha) b hb, t1 b hb a ha, hdv a ha b hb]
  · intro i a b ha hb h1 h2
    have := hrl (a + 1) ha
    obtain ⟨x, y, hx, hy, e⟩ := s1 i b a hb ha h1 h2
    rw [hdv a (by omega) b hb] at hx
    rw [hdv (a + 1) ha b hb] at hy
    injection hx with hx
    injection hy with hy
    rw [el_row_eq sh (by omega) (hcl b hb), t2 i (by omega) b hb, e, hx, hy]
  · intro i j b hi hb h1 h2
    have := hcl (b + 1) hb
    obtain ⟨x, y, hx, hy, e⟩ := s2 j i b (by omega) hb h1 h2
    refine ⟨x, y, ?_, ?_, ?_⟩
    · rw [el_row_eq sh (by omega) (hcl b (by omega)), t2 i (by omega) b (by omega), hx]
    · rw [el_row_eq sh (by omega) (hcl _ hb), t2 i (by omega) _ hb, hy]
    · rw [el_row_eq sh (by omega) (by omega), e]
  · intro i j hi hj
    have := hcl 0 hlc
    rw [el_row_eq sh (by omega) (by omega)]
    exact b2 j i (by omega) hj

/-- **C47 (partial)**: with a pandas that has `DataFrame.as_matrix` (before 1.0), for increasing tie rows and columns
starting at 0 and tie data of numbers, `interpolate` succeeds and returns the latitudes and the longitudes (in this order),
each as the property says.  Missing: newer pandas (`C47_negation_pandas`) and NaN tie data (`C47_negation_nan`). -/
theorem C47_linear_partial (rs cs : List Nat) (hr : rs.Pairwise (· < ·)) (hr0 : rs.head? = some 0)
    (hc : cs.Pairwise (· < ·)) (hc0 : cs.head? = some 0) (lat lon : List (List K)) (h1 : Shape rs.length cs.length lat)
    (h2 : Shape rs.length cs.length lon) :
    ∃ la lo, Basic.interpolate true (labels cs) (labels rs) cs.length (numMat lat) (numMat lon) = .ok (la, lo) ∧
      BasicResult rs cs lat la ∧ BasicResult rs cs lon lo := by
  have nr : rs ≠ [] := by intro e; rw [e] at hr0; simp at hr0
  have nc : cs ≠ [] := by intro e; rw [e] at hc0; simp at hc0
  have z : rs.getD 0 0 = 0 := by
    cases rs with
    | nil => rfl
    | cons a l => simpa using hr0
  obtain ⟨la, e1, b1, _⟩ := basic_interp hr z nr hc nc lat h1
  obtain ⟨lo, e2, b2, _⟩ := basic_interp hr z nr hc nc lon h2
  refine ⟨la, lo, ?_, b1, b2⟩
  unfold Basic.interpolate
  rw [e1]
  simp only
  rw [e2]

/-- **C47 (columns before the first tie column)**: when the first tie column is not 0, the columns before it are NaN. -/
theorem C47_before_first (rs cs : List Nat) (hr : rs.Pairwise (· < ·)) (hr0 : rs.head? = some 0)
    (hc : cs.Pairwise (· < ·)) (hc0 : cs ≠ []) (lat lon : List (List K)) (h1 : Shape rs.length cs.length lat)
    (h2 : Shape rs.length cs.length lon) :
    ∃ la lo, Basic.interpolate true (labels cs) (labels rs) cs.length (numMat lat) (numMat lon) = .ok (la, lo) ∧
      ∀ i j : Nat, i ≤ rs.getD (rs.length - 1) 0 → j < cs.getD 0 0 → el (row la i) j = bad ∧ el (row lo i) j = bad := by
  have nr : rs ≠ [] := by intro e; rw [e] at hr0; simp at hr0
  have z : rs.getD 0 0 = 0 := by
    cases rs with
    | nil => rfl
    | cons a l => simpa using hr0
  obtain ⟨la, e1, _, b1⟩ := basic_interp hr z nr hc hc0 lat h1
  obtain ⟨lo, e2, _, b2⟩ := basic_interp hr z nr hc hc0 lon h2
  refine ⟨la, lo, ?_, fun i j hi hj => ⟨b1 i j hi hj, b2 i j hi hj⟩⟩
  unfold Basic.interpolate
  rw [e1]
  simp only
  rw [e2]

/-- tie rows 0, 3, 5 and columns 0, 2 -/
example := C47_linear_partial (K := ℚ) [0, 3, 5] [0, 2] (by decide) rfl (by decide) rfl [[1, 3], [4, 0], [2, 2]]
  [[10, 30], [40, 0], [20, 20]] ⟨rfl, by decide⟩ ⟨rfl, by decide⟩

example := C47_before_first (K := ℚ) [0, 3, 5] [1, 2] (by decide) rfl (by decide) (by decide) [[1, 3], [4, 0], [2, 2]]
  [[10, 30], [40, 0], [20, 20]] ⟨rfl, by decide⟩ ⟨rfl, by decide⟩

/-- **C47 (negation)**: with pandas 1.0 or later no call ever succeeds, whatever the arithmetic, the labels and the data;
calls the older versions accept raise `AttributeError`. -/
theorem C47_negation_pandas {α : Type} [Arith α] (cols rows : List Int) (w : Nat) (lat lon : Mat α) :
    (∀ r, Basic.interpolate false cols rows w lat lon ≠ .ok r) ∧
      ∀ r, Basic.interpolate true cols rows w lat lon = .ok r →
        Basic.interpolate false cols rows w lat lon = .error .attributeError := by
  have hi : ∀ d : Mat α, (∃ e, pandasInterp rows w d = .error e ∧ interp false rows cols w d = .error e ∧
      interp true rows cols w d = .error e) ∨ interp false rows cols w d = .error .attributeError := by
    intro d
    unfold interp
    cases pandasInterp rows w d with
    | error e => exact Or.inl ⟨e, rfl, rfl, rfl⟩
    | ok v => exact Or.inr rfl
  unfold Basic.interpolate
  rcases hi lat with ⟨e, _, h2, h3⟩ | h
  · rw [h2, h3]
    exact ⟨by simp, by simp⟩
  · rw [h]
    exact ⟨by simp, by simp⟩

/-- **C47 (negation, NaN)**: a NaN tie value is replaced by interpolated values, so the result is not the tie data at the
tie positions. -/
theorem C47_negation_nan :
    (interp true [0, 1, 2] [0, 1] 2 ([[val 1, val 1], [bad, val 1], [val 3, val 1]] : Mat (FP ℚ))).toOption.map
      (fun m => el (row m 1) 0) = some (val 2) := by
  decide +kernel

/-- labels pandas can reindex by: some, and no duplicates unless nothing is asked for -/
def Labels (l : List Int) : Prop := ∃ last, l.getLast? = some last ∧ (l.Nodup ∨ last < 0)

theorem pandasInterp_iff {α : Type} [Arith α] (indices : List Int) (w : Nat) (data : Mat α) :
    (Labels indices ∧ data.length = indices.length ∧ ∃ last m, indices.getLast? = some last ∧
      pandasInterp indices w data = .ok ((last + 1).toNat, m) ∧ m.length = w ∧ ∀ c ∈ m, c.length = (last + 1).toNat) ∨
    (¬ (Labels indices ∧ data.length = indices.length) ∧
      pandasInterp indices w data = .error (if indices = [] then .indexError else .valueError)) := by
  unfold pandasInterp Labels
  cases h : indices.getLast? with
  | none =>
    right
    rw [List.getLast?_eq_none_iff] at h
    simp [h]
  | some last =>
    have hne : indices ≠ [] := by rintro rfl; simp at h
    simp only [hne, if_false]
    by_cases h1 : data.length = indices.length
    · rw [if_neg (by simpa using h1)]
      by_cases h2 : indices.Nodup ∨ last < 0
      · left
        refine ⟨⟨last, rfl, h2⟩, h1, last, (List.range w).map (fun j => seriesInterp (reindexed indices data (last + 1).toNat j)),
          rfl, ?_, ?_, ?_⟩
        · rw [if_neg]
          rintro ⟨h3, h4⟩
          rcases h2 with h2 | h2
          · exact h3 h2
          · omega
        · simp
        · intro c hc
          obtain ⟨j, _, rfl⟩ := List.mem_map.1 hc
          simp [seriesInterp, reindexed]
      · right
        rw [not_or] at h2
        refine ⟨?_, ?_⟩
        · rintro ⟨⟨l, hl, h3⟩, _⟩
          injection hl with hl
          subst hl
          exact h3.elim h2.1 h2.2
        · rw [if_pos ⟨h2.1, by omega⟩]
    · right
      exact ⟨fun h => h1 h.2, by rw [if_pos (by simpa using h1)]⟩

/-- **C47 (accepted)**: in any arithmetic, the call succeeds exactly if the labels are suitable and each array has one row per row
label and one column per column label; the results then reach to the last label in each direction, and otherwise the call fails with
IndexError for missing labels and ValueError for the rest. -/
theorem C47_accepted {α : Type} [Arith α] (cols rows : List Int) (w : Nat) (lat lon : Mat α) :
    (Labels rows ∧ Labels cols ∧ lat.length = rows.length ∧ lon.length = rows.length ∧ w = cols.length ∧
      ∃ la lo r c, Basic.interpolate true cols rows w lat lon = .ok (la, lo) ∧ rows.getLast? = some r ∧ cols.getLast? = some c ∧
        (∀ m ∈ [la, lo], m.length = (r + 1).toNat ∧ ∀ l ∈ m, l.length = (c + 1).toNat)) ∨
    (¬ (Labels rows ∧ Labels cols ∧ lat.length = rows.length ∧ lon.length = rows.length ∧ w = cols.length) ∧
      (Basic.interpolate true cols rows w lat lon = .error .valueError ∨
        Basic.interpolate true cols rows w lat lon = .error .indexError ∧ (rows = [] ∨ cols = []))) := by
  have one : ∀ d : Mat α,
      (Labels rows ∧ Labels cols ∧ d.length = rows.length ∧ w = cols.length ∧
        ∃ m r c, interp true rows cols w d = .ok m ∧ rows.getLast? = some r ∧ cols.getLast? = some c ∧
          m.length = (r + 1).toNat ∧ ∀ l ∈ m, l.length = (c + 1).toNat) ∨
      (¬ (Labels rows ∧ Labels cols ∧ d.length = rows.length ∧ w = cols.length) ∧
        (interp true rows cols w d = .error .valueError ∨
          interp true rows cols w d = .error .indexError ∧ (rows = [] ∨ cols = []))) := by
    intro d
    unfold interp
    rcases pandasInterp_iff rows w d with ⟨h1, h2, r, m, hr, e, h3, h4⟩ | ⟨h1, e⟩
    · rw [e]
      simp only [Bool.not_true, Bool.false_eq_true, if_false]
      rcases pandasInterp_iff cols (r + 1).toNat m with ⟨g1, g2, c, m', hc, e', g3, g4⟩ | ⟨g1, e'⟩
      · rw [e']
        exact Or.inl ⟨h1, g1, h2, by omega, m', r, c, rfl, hr, hc, g3, g4⟩
      · rw [e']
        refine Or.inr ⟨fun h => g1 ⟨h.2.1, by omega⟩, ?_⟩
        by_cases hn : cols = []
        · exact Or.inr ⟨by simp [hn], Or.inr hn⟩
        · exact Or.inl (by simp [hn])
    · rw [e]
      refine Or.inr ⟨fun h => h1 ⟨h.1, h.2.2.1⟩, ?_⟩
      by_cases hn : rows = []
      · exact Or.inr ⟨by simp [hn], Or.inl hn⟩
      · exact Or.inl (by simp [hn])
  unfold Basic.interpolate
  rcases one lat with ⟨a1, a2, a3, a4, la, r, c, e, hr, hc, b1, b2⟩ | ⟨h, e⟩
  · rw [e]
    rcases one lon with ⟨_, _, a3', _, lo, r', c', e', hr', hc', b1', b2'⟩ | ⟨h, e'⟩
    · rw [e']
      refine Or.inl ⟨a1, a2, a3, a3', a4, la, lo, r, c, rfl, hr, hc, ?_⟩
      rw [hr] at hr'
      rw [hc] at hc'
      injection hr' with hr'
      injection hc' with hc'
      subst hr' hc'
      intro m hm
      simp only [List.mem_cons, List.not_mem_nil, or_false] at hm
      rcases hm with rfl | rfl
      · exact ⟨b1, b2⟩
      · exact ⟨b1', b2'⟩
    · refine Or.inr ⟨fun h' => h ⟨h'.1, h'.2.1, h'.2.2.2.1, h'.2.2.2.2⟩, ?_⟩
      rcases e' with e' | ⟨e', hn⟩
      · rw [e']; exact Or.inl rfl
      · rw [e']; exact Or.inr ⟨rfl, hn⟩
  · refine Or.inr ⟨fun h' => h ⟨h'.1, h'.2.1, h'.2.2.1, h'.2.2.2.2⟩, ?_⟩
    rcases e with e | ⟨e, hn⟩
    · rw [e]; exact Or.inl rfl
    · rw [e]; exact Or.inr ⟨rfl, hn⟩

/-- duplicate labels, one fine row asked for -/
example : Basic.interpolate true [0, 1] [0, 0] 2 ([[val 1, val 2], [val 3, val 4]] : Mat (FP ℚ)) [[val 1, val 2], [val 3, val 4]]
    = .error .valueError := by
  rcases C47_accepted [0, 1] [0, 0] 2 ([[val 1, val 2], [val 3, val 4]] : Mat (FP ℚ)) [[val 1, val 2], [val 3, val 4]] with
    ⟨⟨l, h, h'⟩, _⟩ | ⟨_, h | ⟨_, h⟩⟩
  · simp at h; subst h; simp at h'
  · exact h
  · simp at h

/-- labels that do not increase: the result ends at the last one -/
example : ∃ la lo, Basic.interpolate true [0, 1] [0, 4, 2] 2 ([[val 1, val 2], [val 3, val 4], [val 5, val 6]] : Mat (FP ℚ))
    [[val 1, val 2], [val 3, val 4], [val 5, val 6]] = .ok (la, lo) ∧ la.length = 3 := by
  rcases C47_accepted [0, 1] [0, 4, 2] 2 ([[val 1, val 2], [val 3, val 4], [val 5, val 6]] : Mat (FP ℚ))
    [[val 1, val 2], [val 3, val 4], [val 5, val 6]] with ⟨_, _, _, _, _, la, lo, r, c, h, hr, _, hm⟩ | ⟨h, _⟩
  · simp at hr; subst hr
    exact ⟨la, lo, h, (hm la (by simp)).1⟩
  · exact absurd ⟨⟨2, rfl, Or.inl (by decide)⟩, ⟨1, rfl, Or.inl (by decide)⟩, rfl, rfl, rfl⟩ h

end Verif.Props
