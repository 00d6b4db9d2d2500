import Verif.Model.Multi
import Verif.Proofs.Interpolator

/-!
# C18, C19: splitting a swath for several cores and putting it together again
-/

namespace Verif.Props
open Verif Verif.Multi

/-! ## C18 -/

/-- number of pieces when cutting `n` lines every `step` lines -/
def ceilDiv (n step : Nat) : Nat := (n + step - 1) / step

theorem pyRange_mem {a b step x : Nat} (hs : 1 ≤ step) (h : x ∈ pyRange a b step) :
    x < b ∧ a ≤ x ∧ step ∣ (x - a) := by
  unfold pyRange at h
  obtain ⟨i, hi, rfl⟩ := List.mem_map.mp h
  have hi' := List.mem_range.mp hi
  have h1 : i * step < (b - a + step - 1) / step * step := Nat.mul_lt_mul_of_pos_right hi' hs
  have h2 : (i + 1) * step ≤ (b - a + step - 1) / step * step := Nat.mul_le_mul_right _ hi'
  have h3 := Nat.div_mul_le_self (b - a + step - 1) step
  rw [Nat.add_mul] at h2
  refine ⟨by omega, by omega, ?_⟩
  rw [Nat.add_sub_cancel_left]
  exact Dvd.intro_left i rfl

theorem pyRange_sorted (a b step : Nat) (hs : 1 ≤ step) : (pyRange a b step).Pairwise (· < ·) := by
  unfold pyRange
  rw [List.pairwise_map]
  refine List.pairwise_lt_range.imp (fun h => ?_)
  have := Nat.mul_lt_mul_of_pos_right h hs
  omega

/-- the step between two cuts: whole scans, as many as the cores allow, at least one -/
theorem sceneSplits_eq (n scan cpus : Nat) (hscan : 1 ≤ scan) (hc : 1 ≤ cpus) :
    ∃ k, 1 ≤ k ∧ (k = if n / scan < cpus then 1 else n / scan / cpus) ∧
      sceneSplits n scan cpus = .ok (pyRange (k * scan) n (k * scan)) := by
  have hz : ¬ scan = 0 := by omega
  unfold sceneSplits
  simp only [if_neg hz]
  by_cases h : n / scan < cpus
  · exact ⟨1, by omega, by simp only [if_pos h], by simp only [if_pos h]⟩
  · have hk : 1 ≤ n / scan / cpus := Nat.div_pos (by omega) (by omega)
    have hz2 : ¬ n / scan / cpus * scan = 0 := by
      have : 0 < n / scan / cpus * scan := Nat.mul_pos hk (by omega)
      omega
    have hz3 : ¬ cpus = 0 := by omega
    exact ⟨n / scan / cpus, hk, by simp only [if_neg h], by simp only [if_neg h, if_neg hz2, if_neg hz3]⟩

/-- The pieces between cuts: consecutive slices of the rows. -/
theorem vsplit_flatten {β : Type} (rows : List β) (splits : List Nat) (hs : splits.Pairwise (· < ·))
    (hn : ∀ x ∈ splits, x ≤ rows.length) : (vsplit rows splits).flatten = rows := by
  have gen : ∀ (l : List Nat) (a : Nat), (a :: l).Pairwise (· ≤ ·) → (∀ x ∈ a :: l, x ≤ rows.length) →
      (List.zipWith (slice rows) (a :: l) (l ++ [rows.length])).flatten = rows.drop a := by
    intro l
    induction l with
    | nil => intro a _ _; simp [slice]
    | cons b l ih =>
      intro a hp hb
      have hab : a ≤ b := (List.pairwise_cons.mp hp).1 b (List.mem_cons_self ..)
      have := ih b (List.pairwise_cons.mp hp).2 (fun x hx => hb x (List.mem_cons_of_mem _ hx))
      simp only [List.cons_append, List.zipWith_cons_cons, List.flatten_cons] at this ⊢
      rw [this]
      unfold slice
      rw [List.drop_take]
      have : rows.drop b = (rows.drop a).drop (b - a) := by rw [List.drop_drop]; congr 1; omega
      rw [this, List.take_append_drop]
  have := gen splits 0 (by
    rw [List.pairwise_cons]
    exact ⟨fun x _ => Nat.zero_le x, hs.imp Nat.le_of_lt⟩) (by
    intro x hx
    rcases List.mem_cons.mp hx with rfl | hx
    · exact Nat.zero_le _
    · exact hn x hx)
  simpa [vsplit] using this

theorem vsplit_length {β : Type} (rows : List β) (splits : List Nat) :
    (vsplit rows splits).length = splits.length + 1 := by simp [vsplit]

/-- piece `i` of a regular split -/
theorem vsplit_regular {β : Type} (rows : List β) (step : Nat) (hs : 1 ≤ step) (i : Nat)
    (hi : i < (vsplit rows (pyRange step rows.length step)).length) :
    (vsplit rows (pyRange step rows.length step))[i] = slice rows (i * step) (min ((i + 1) * step) rows.length) := by
  set L := (pyRange step rows.length step).length with hL
  have hLeq : L = (rows.length - step + step - 1) / step := by rw [hL]; simp [pyRange]
  have hi' : i < L + 1 := by rw [vsplit_length] at hi; exact hi
  have hget : ∀ j (h : j < L), (pyRange step rows.length step)[j]'(by omega) = step + j * step := by
    intro j h; simp [pyRange]
  simp only [vsplit, List.getElem_zipWith]
  have e1 : (0 :: pyRange step rows.length step)[i]'(by simp; omega) = i * step := by
    cases i with
    | zero => simp
    | succ j => rw [List.getElem_cons_succ, hget j (by omega)]; ring
  have e2 : (pyRange step rows.length step ++ [rows.length])[i]'(by simp; omega) = min ((i + 1) * step) rows.length := by
    by_cases h : i < L
    · rw [List.getElem_append_left (by omega), hget i h]
      have := (pyRange_mem hs (List.getElem_mem (by omega : i < (pyRange step rows.length step).length))).1
      rw [hget i h] at this
      rw [Nat.add_mul, Nat.one_mul, Nat.min_eq_left (by omega)]
      omega
    · have hiL : i = L := by omega
      rw [List.getElem_append_right (by omega)]
      simp only [List.getElem_singleton]
      symm
      apply Nat.min_eq_right
      rw [hiL, hLeq]
      have := Nat.lt_div_mul_add (a := rows.length - step + step - 1) (b := step) (by omega)
      rw [Nat.add_mul, Nat.one_mul]
      by_cases hle : step ≤ rows.length
      · omega
      · have : 0 ≤ (rows.length - step + step - 1) / step * step := Nat.zero_le _
        omega
  rw [e1, e2]

/-- **C18**: for every number of lines, scan length and number of cores, the cuts are strictly increasing line numbers
strictly inside the swath, all multiples of the scan length; the pieces put together are the swath; every piece is
non-empty; every piece but the last is a whole number of scans, and so is the last one if the swath is. -/
theorem C18_scene_splits {β : Type} (rows : List β) (scan cpus : Nat) (hscan : 1 ≤ scan) (hc : 1 ≤ cpus)
    (hn : 1 ≤ rows.length) :
    ∃ splits, sceneSplits rows.length scan cpus = .ok splits ∧
      splits.Pairwise (· < ·) ∧ (∀ x ∈ splits, 0 < x ∧ x < rows.length ∧ scan ∣ x) ∧
      (vsplit rows splits).flatten = rows ∧ (vsplit rows splits).length = splits.length + 1 ∧
      (∀ p ∈ vsplit rows splits, p ≠ []) ∧
      (∀ i (h : i < (vsplit rows splits).length), i + 1 < (vsplit rows splits).length ∨ scan ∣ rows.length →
        scan ∣ (vsplit rows splits)[i].length) := by
  obtain ⟨k, hk, _, he⟩ := sceneSplits_eq rows.length scan cpus hscan hc
  have hst : 1 ≤ k * scan := Nat.mul_pos hk hscan
  have hmem : ∀ x ∈ pyRange (k * scan) rows.length (k * scan), 0 < x ∧ x < rows.length ∧ scan ∣ x := by
    intro x hx
    obtain ⟨h1, h2, h3⟩ := pyRange_mem hst hx
    refine ⟨by omega, h1, ?_⟩
    have : k * scan ∣ x := (Nat.dvd_sub_iff_left h2 (dvd_refl _)).mp h3
    exact Dvd.dvd.trans (Dvd.intro_left k rfl) this
  have hlen : ∀ i (h : i < (vsplit rows (pyRange (k * scan) rows.length (k * scan))).length),
      i * (k * scan) < rows.length := by
    intro i h
    cases i with
    | zero => omega
    | succ j =>
      rw [vsplit_length] at h
      have hj : j < (pyRange (k * scan) rows.length (k * scan)).length := by omega
      have := (pyRange_mem hst (List.getElem_mem hj)).1
      have e : (pyRange (k * scan) rows.length (k * scan))[j] = k * scan + j * (k * scan) := by simp [pyRange]
      rw [e] at this
      rw [Nat.add_mul]; omega
  refine ⟨_, he, pyRange_sorted _ _ _ hst, hmem,
    vsplit_flatten _ _ (pyRange_sorted _ _ _ hst) (fun x hx => (hmem x hx).2.1.le), vsplit_length _ _, ?_, ?_⟩
  · intro p hp hnil
    obtain ⟨i, hi, rfl⟩ := List.mem_iff_getElem.mp hp
    have h1 := hlen i hi
    rw [vsplit_regular _ _ hst i hi] at hnil
    have : (slice rows (i * (k * scan)) (min ((i + 1) * (k * scan)) rows.length)).length = 0 := by rw [hnil]; rfl
    simp only [slice, List.length_drop, List.length_take] at this
    rw [Nat.add_mul] at this
    omega
  · intro i hi hor
    rw [vsplit_regular _ _ hst i hi]
    have h1 := hlen i hi
    simp only [slice, List.length_drop, List.length_take]
    have hd : scan ∣ i * (k * scan) := ⟨i * k, by ring⟩
    have hd1 : scan ∣ (i + 1) * (k * scan) := ⟨(i + 1) * k, by ring⟩
    refine Nat.dvd_sub ?_ hd
    rcases hor with h | h
    · have := hlen (i + 1) h
      rw [Nat.min_eq_left (by omega), Nat.min_eq_left (by omega)]
      exact hd1
    · rcases Nat.le_total ((i + 1) * (k * scan)) rows.length with h' | h'
      · rw [Nat.min_eq_left h', Nat.min_eq_left h']; exact hd1
      · rw [Nat.min_eq_right h', Nat.min_eq_left (le_refl _)]; exact h

example := C18_scene_splits (List.range 1060) 10 3 (by simp) (by simp) (by simp)

/-- the example: 106 scans of 10 lines on 3 cores -/
example : sceneSplits 1060 10 3 = .ok [350, 700, 1050] := by decide

/-- **C18 (number of pieces)**: with at least one scan per core there are at most twice as many pieces as cores;
otherwise there is one piece per scan (or part of a scan). -/
theorem C18_number_of_pieces {β : Type} (rows : List β) (scan cpus : Nat) (hscan : 1 ≤ scan) (hc : 1 ≤ cpus)
    (hn : 1 ≤ rows.length) (splits : List Nat) (h : sceneSplits rows.length scan cpus = .ok splits) :
    (cpus ≤ rows.length / scan → (vsplit rows splits).length ≤ 2 * cpus) ∧
    (rows.length / scan < cpus → (vsplit rows splits).length = ceilDiv rows.length scan) := by
  obtain ⟨k, hk, hkeq, he⟩ := sceneSplits_eq rows.length scan cpus hscan hc
  rw [he] at h
  injection h with h
  subst h
  have hst : 1 ≤ k * scan := Nat.mul_pos hk hscan
  have hpieces : (vsplit rows (pyRange (k * scan) rows.length (k * scan))).length = ceilDiv rows.length (k * scan) := by
    rw [vsplit_length]
    simp only [pyRange, List.length_map, List.length_range, ceilDiv]
    by_cases hle : k * scan ≤ rows.length
    · have : rows.length + k * scan - 1 = (rows.length - k * scan + k * scan - 1) + k * scan := by omega
      rw [this, Nat.add_div_right _ (by omega)]
    · have e1 : (rows.length - k * scan + k * scan - 1) / (k * scan) = 0 := Nat.div_eq_of_lt (by omega)
      have e2 : (rows.length + k * scan - 1) / (k * scan) = 1 := by
        rw [show rows.length + k * scan - 1 = (rows.length - 1) + k * scan by omega, Nat.add_div_right _ (by omega),
          Nat.div_eq_of_lt (by omega)]
      rw [e1, e2]
  rw [hpieces]
  constructor
  · intro hge
    rw [if_neg (by omega)] at hkeq
    set q := rows.length / scan with hq
    have h1 : rows.length < (q + 1) * scan := by
      have := Nat.lt_div_mul_add (a := rows.length) (b := scan) (by omega)
      rw [← hq] at this; rw [Nat.add_mul]; omega
    have h2 : q + 1 ≤ cpus * k + cpus := by
      have := Nat.lt_div_mul_add (a := q) (b := cpus) (by omega)
      rw [← hkeq] at this
      rw [Nat.mul_comm cpus k]; omega
    have h3 : cpus * k + cpus ≤ 2 * cpus * k := by
      have : cpus * 1 ≤ cpus * k := Nat.mul_le_mul_left _ hk
      have : 2 * cpus * k = cpus * k + cpus * k := by ring
      omega
    have h4 : rows.length < 2 * cpus * (k * scan) := by
      have := Nat.mul_le_mul_right scan (h2.trans h3)
      calc rows.length < (q + 1) * scan := h1
        _ ≤ 2 * cpus * k * scan := this
        _ = 2 * cpus * (k * scan) := by ring
    unfold ceilDiv
    have : (rows.length + k * scan - 1) / (k * scan) < 2 * cpus + 1 := by
      rw [Nat.div_lt_iff_lt_mul (by omega), Nat.add_mul]; omega
    omega
  · intro hlt
    rw [if_pos hlt] at hkeq
    rw [hkeq, Nat.one_mul]

example := C18_number_of_pieces (List.range 1060) 10 3 (by simp) (by simp) (by simp) [350, 700, 1050] (by
  rw [List.length_range]; decide)

/-! ## C19 -/

section C19
variable {β γ : Type}

theorem runPool_store (task : Nat → γ) (sched : List Nat) (store : Nat → Option γ) (i : Nat) :
    runPool task sched store i = if i ∈ sched then some (task i) else store i := by
  induction sched generalizing store with
  | nil => simp [runPool]
  | cons a l ih =>
    rw [runPool, ih]
    by_cases h1 : i ∈ l
    · simp [h1]
    · by_cases h2 : i = a
      · subst h2; simp
      · simp [h1, h2]

/-- the pieces of the two arrays, in swath order -/
def piecesOf (lons lats : List β) (splits : List Nat) : List (List β × List β) :=
  (vsplit lons splits).zip (vsplit lats splits)

theorem multi_eq (fn : List β → List β → Except Err (List γ × List γ)) (lons lats : List β) (scan cores : Nat)
    (splits : List Nat) (h : sceneSplits lons.length scan cores = .ok splits) (sched : List Nat)
    (hs : ∀ i < (vsplit lons splits).length, i ∈ sched) :
    multi fn lons lats scan cores sched
      = ((piecesOf lons lats splits).mapM (fun p => fn p.1 p.2)).map
          (fun r => ((r.map (·.1)).flatten, (r.map (·.2)).flatten)) := by
  unfold multi
  rw [h]
  simp only [bind, Except.bind]
  have hl : (vsplit lons splits).length = (vsplit lats splits).length := by rw [vsplit_length, vsplit_length]
  have hget : ∀ i ∈ List.range (vsplit lons splits).length,
      getResult (runPool (fun i => fn ((vsplit lons splits).getD i []) ((vsplit lats splits).getD i [])) sched (fun _ => none)) i
        = (fun i => fn ((vsplit lons splits).getD i []) ((vsplit lats splits).getD i [])) i := by
    intro i hi
    unfold getResult
    rw [runPool_store, if_pos (hs i (List.mem_range.mp hi))]
  have hp : piecesOf lons lats splits = (List.range (vsplit lons splits).length).map
      (fun i => ((vsplit lons splits).getD i [], (vsplit lats splits).getD i [])) := by
    unfold piecesOf
    apply List.ext_getElem
    · simp [← hl]
    · intro i h1 h2
      have h3 : i < (vsplit lons splits).length := by simpa using h2
      have h4 : i < (vsplit lats splits).length := by omega
      simp [h3, h4]
  have hm : ∀ (l : List Nat) (f g : Nat → Except Err (List γ × List γ)), (∀ i ∈ l, f i = g i) → l.mapM f = l.mapM g := by
    intro l f g hfg
    induction l with
    | nil => rfl
    | cons a l ih =>
      rw [List.mapM_cons, List.mapM_cons, hfg a (List.mem_cons_self ..),
        ih (fun i hi => hfg i (List.mem_cons_of_mem _ hi))]
  rw [hm _ _ _ hget, hp, List.mapM_map]
  rfl

/-- **C19**: whatever the order in which the workers finish (`sched` is any order of the pieces) and whatever the worker
function: if all pieces succeed the result is their results stacked in swath order; otherwise the error of the first
failing piece, in swath order, is raised. -/
theorem C19_any_schedule (fn : List β → List β → Except Err (List γ × List γ)) (lons lats : List β) (scan cores : Nat)
    (splits : List Nat) (h : sceneSplits lons.length scan cores = .ok splits) (sched : List Nat)
    (hs : sched.Perm (List.range (vsplit lons splits).length)) :
    (∀ res, List.Forall₂ (fun p r => fn p.1 p.2 = .ok r) (piecesOf lons lats splits) res →
      multi fn lons lats scan cores sched = .ok ((res.map (·.1)).flatten, (res.map (·.2)).flatten)) ∧
    (∀ pre p post e, piecesOf lons lats splits = pre ++ p :: post → (∀ q ∈ pre, ∃ r, fn q.1 q.2 = .ok r) →
      fn p.1 p.2 = .error e → multi fn lons lats scan cores sched = .error e) := by
  have hs' : ∀ i < (vsplit lons splits).length, i ∈ sched := by
    intro i hi
    exact hs.mem_iff.mpr (List.mem_range.mpr hi)
  rw [multi_eq fn lons lats scan cores splits h sched hs']
  constructor
  · intro res hf
    have : (piecesOf lons lats splits).mapM (fun p => fn p.1 p.2) = .ok res := by
      generalize piecesOf lons lats splits = ps at hf
      induction hf with
      | nil => rfl
      | cons h1 _ ih => rw [List.mapM_cons, h1, ih]; rfl
    rw [this]; rfl
  · intro pre p post e hp hpre he
    rw [hp]
    have : (pre ++ p :: post).mapM (fun p => fn p.1 p.2) = .error e := by
      clear hp
      induction pre with
      | nil => rw [List.nil_append, List.mapM_cons, he]; rfl
      | cons a l ih =>
        obtain ⟨r, hr⟩ := hpre a (List.mem_cons_self ..)
        rw [List.cons_append, List.mapM_cons, hr, ih (fun q hq => hpre q (List.mem_cons_of_mem _ hq))]
        rfl
    rw [this]; rfl

/-- four pieces finished in the order 2, 0, 3, 1 -/
example (fn : List β → List β → Except Err (List γ × List γ)) (a : β) :=
  C19_any_schedule fn (List.replicate 1060 a) (List.replicate 1060 a) 10 3 [350, 700, 1050]
    (by rw [List.length_replicate]; decide) [2, 0, 3, 1] (by
      rw [vsplit_length]; decide)

end C19

end Verif.Props
