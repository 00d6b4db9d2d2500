import Verif.Model.ModisDask
import Verif.Proofs.Modis

/-!
# Lemmas about the lazy path: blocks, stacking
-/

namespace Verif.ModisDask
open Verif Verif.Modis
variable {α : Type}

theorem blockdims_sum {d bd : Nat} {l : List Nat} (h : blockdims d bd = .ok l) : l.sum = d := by
  unfold blockdims at h
  split at h
  · injection h with h; subst h; simp_all
  · split at h
    · cases h
    · injection h with h
      subst h
      have := Nat.div_add_mod d bd
      split <;> simp_all <;> rw [Nat.mul_comm] <;> omega

theorem blockdims_dvd {d bd q : Nat} {l : List Nat} (h : blockdims d bd = .ok l) (hd : q ∣ d) (hb : q ∣ bd) :
    ∀ c ∈ l, q ∣ c := by
  unfold blockdims at h
  split at h
  · injection h with h; subst h; simp
  · split at h
    · cases h
    · injection h with h
      subst h
      intro c hc
      rcases List.mem_append.mp hc with hc | hc
      · rw [(List.mem_replicate.mp hc).2]; exact hb
      · split at hc
        · cases hc
        · rw [List.mem_singleton] at hc
          rw [hc]; exact (Nat.dvd_mod_iff hb).mpr hd

theorem blockdims_ok {d bd : Nat} (h : d = 0 ∨ bd ≠ 0) : ∃ c l, blockdims d bd = .ok (c :: l) := by
  unfold blockdims
  by_cases h0 : d = 0
  · exact ⟨0, [], by rw [if_pos h0]⟩
  · have hb : bd ≠ 0 := by tauto
    rw [if_neg h0, if_neg hb]
    by_cases hlt : d < bd
    · rw [Nat.div_eq_of_lt hlt, Nat.mod_eq_of_lt hlt, if_neg h0]
      exact ⟨d, [], rfl⟩
    · have h1 : 0 < d / bd := Nat.div_pos (by omega) (by omega)
      obtain ⟨m, hm⟩ := Nat.exists_eq_succ_of_ne_zero (show d / bd ≠ 0 by omega)
      rw [hm]
      exact ⟨bd, _, rfl⟩

/-- Rechunking arrays that all have `N` rows. -/
theorem rechunk_all {r N : Nat} {rc : List Nat} (hr : blockdims N r = .ok rc) (l : List (DArr α))
    (h : ∀ a ∈ l, a.data.rows = N) :
    l.mapM (fun a => a.rechunkRows r) = .ok (l.map (fun a => ⟨a.data, rc, [a.data.cols]⟩)) := by
  induction l with
  | nil => rfl
  | cons a l ih =>
    have e : a.rechunkRows r = .ok ⟨a.data, rc, [a.data.cols]⟩ := by
      simp only [DArr.rechunkRows, h a (List.mem_cons_self ..), hr, bind, Except.bind]
    rw [List.mapM_cons, e, ih (fun b hb => h b (List.mem_cons_of_mem _ hb))]
    rfl

/-- The check on the column chunks never succeeds: with one column chunk, that chunk is the whole width. -/
theorem goodCol_false {a : DArr α} (h : a.WF) :
    (a.colChunks.length == 1 && a.colChunks.headD 0 != a.data.cols) = false := by
  have hc := h.cols
  match hcc : a.colChunks with
  | [] => rfl
  | [x] => rw [hcc] at hc; simp at hc; simp [hc]
  | _ :: _ :: _ => simp

/-- The delayed calls and their stacked results, for blocks that are whole scans (of sizes with `P`). -/
theorem blocks_ok {func : Nat → List (Arr2 α) → Except Err (Arr2 α × Arr2 α)} {args : List (DArr α)}
    {rps f OC N : Nat} {G : Nat → Nat → α × α} (d : α) (P : Nat → Prop)
    (H : ∀ k s n, P (n * rps) → (s + n) * rps ≤ N → ∃ out,
      func k (args.map (fun x => x.data.rowSlice (s * rps) (s * rps + n * rps))) = .ok out ∧
      out.1.Holds (n * rps * f) OC (fun r c => (G (s * rps * f + r) c).1) (fun _ _ => True) ∧
      out.2.Holds (n * rps * f) OC (fun r c => (G (s * rps * f + r) c).2) (fun _ _ => True))
    (cs : List Nat) : ∀ (k off : Nat), (∀ c ∈ cs, P c) → (∀ c ∈ cs, rps ∣ c) → rps ∣ off → off + cs.sum ≤ N →
    ∃ bs, (tasks func args k (blockRanges off cs)).mapM id = .ok bs ∧
      bs.map (fun b => b.1.rows) = cs.map (· * f) ∧
      bs.map (fun b => b.2.rows) = cs.map (· * f) ∧
      (∀ b ∈ bs, b.1.cols = OC ∧ b.2.cols = OC) ∧
      ∀ r c, r < cs.sum * f → c < OC →
        stackCell d (bs.map (·.1)) r c = (G (off * f + r) c).1 ∧
        stackCell d (bs.map (·.2)) r c = (G (off * f + r) c).2 := by
  induction cs with
  | nil =>
    intro k off _ _ _ _
    refine ⟨[], rfl, rfl, rfl, by simp, fun r c hr => ?_⟩
    simp at hr
  | cons x cs ih =>
    intro k off hP hdiv hoff hle
    rw [List.sum_cons] at hle
    obtain ⟨s, hs⟩ := hoff
    obtain ⟨n, hn⟩ := hdiv x (List.mem_cons_self ..)
    rw [Nat.mul_comm] at hs hn
    obtain ⟨out, e, p1, p2⟩ := H k s n (hn ▸ hP x (List.mem_cons_self ..)) (by rw [Nat.add_mul]; omega)
    obtain ⟨bs, e', q1, q2, q3, q4⟩ := ih (k + 1) (off + x) (fun c hc => hP c (List.mem_cons_of_mem _ hc))
      (fun c hc => hdiv c (List.mem_cons_of_mem _ hc))
      ⟨s + n, by rw [hs, hn]; ring⟩ (by omega)
    have r1 : out.1.rows = x * f := by rw [p1.rows, hn]
    have r2 : out.2.rows = x * f := by rw [p2.rows, hn]
    refine ⟨out :: bs, ?_, ?_, ?_, ?_, ?_⟩
    · simp only [blockRanges, tasks]
      rw [List.mapM_cons, id, hs, hn, e]
      rw [hs, hn] at e'
      rw [e']
      rfl
    · rw [List.map_cons, List.map_cons, q1, r1]
    · rw [List.map_cons, List.map_cons, q2, r2]
    · intro b hb
      rcases List.mem_cons.mp hb with hb | hb
      · rw [hb]; exact ⟨p1.cols, p2.cols⟩
      · exact q3 b hb
    · intro r c hr hc
      simp only [List.map_cons, stackCell, r1, r2]
      by_cases hlt : r < x * f
      · rw [if_pos hlt, if_pos hlt]
        rw [hn] at hlt
        rw [p1.cell r c hlt hc trivial, p2.cell r c hlt hc trivial, hs]
        exact ⟨rfl, rfl⟩
      · rw [if_neg hlt, if_neg hlt]
        rw [List.sum_cons, Nat.add_mul] at hr
        obtain ⟨a1, a2⟩ := q4 (r - x * f) c (by omega) hc
        have hi : (off + x) * f + (r - x * f) = off * f + r := by rw [Nat.add_mul]; omega
        rw [a1, a2, hi]
        exact ⟨rfl, rfl⟩

/-- What a lazy interpolation declares and computes, when it works: `N * f` rows in the declared blocks, every block
of the declared number of rows and of `OC` columns, and content `G`. -/
structure Lazy.Computes (l : Lazy α) (d : α) (rows OC : Nat) (G : Nat → Nat → α × α) : Prop where
  rowSum : l.rowChunks.sum = rows
  blocks : ∃ bs, l.blocks.mapM id = .ok bs ∧ bs.map (fun b => b.1.rows) = l.rowChunks ∧
    bs.map (fun b => b.2.rows) = l.rowChunks ∧ ∀ b ∈ bs, b.1.cols = OC ∧ b.2.cols = OC
  out : ∃ out, l.compute d = .ok out ∧
    out.1.Holds rows OC (fun r c => (G r c).1) (fun _ _ => True) ∧
    out.2.Holds rows OC (fun r c => (G r c).2) (fun _ _ => True)

theorem sum_map_mul (l : List Nat) (f : Nat) : (l.map (· * f)).sum = l.sum * f := by
  induction l with
  | nil => simp
  | cons a l ih => rw [List.map_cons, List.sum_cons, List.sum_cons, ih, Nat.add_mul]

/-- The lazy path in general: for whole scans, if the first row chunk holds at least one scan. -/
theorem lazyInterp_ok {func : Nat → List (Arr2 α) → Except Err (Arr2 α × Arr2 α)} {coarse fine rps kk f OC N n r0 : Nat}
    {G : Nat → Nat → α × α} (d : α) {first : DArr α} {rest : List (DArr α)} {cs : List Nat}
    (hc : rowsPerScan coarse = .ok rps) (hp : 0 < rps) (hk : finePerKm fine = .ok kk) (h0 : fine ≠ 0)
    (hf : coarse / fine = f) (hN : N = n * rps) (hwf : first.WF)
    (hr : first.rowChunks = r0 :: cs) (hr0 : N = 0 ∨ rps ≤ r0)
    (hrows : ∀ a ∈ first :: rest, a.data.rows = N)
    (H : ∀ k s m, (s + m) * rps ≤ N → ∃ out,
      func k ((first :: rest).map (fun x => x.data.rowSlice (s * rps) (s * rps + m * rps))) = .ok out ∧
      out.1.Holds (m * rps * f) OC (fun r c => (G (s * rps * f + r) c).1) (fun _ _ => True) ∧
      out.2.Holds (m * rps * f) OC (fun r c => (G (s * rps * f + r) c).2) (fun _ _ => True)) :
    ∃ l, lazyInterp func coarse fine first rest = .ok l ∧ l.colChunks = [1354 * kk] ∧
      l.Computes d (N * f) OC G := by
  have hfr := hrows first (List.mem_cons_self ..)
  have hb : N = 0 ∨ r0 / rps * rps ≠ 0 := by
    rcases hr0 with h | h
    · exact Or.inl h
    · refine Or.inr ?_
      have := Nat.div_pos h hp
      exact Nat.mul_ne_zero (by omega) (by omega)
  obtain ⟨c0, cl, hbd⟩ := blockdims_ok hb
  have hre : rechunkIfNeeded rps first rest
      = .ok ((first :: rest).map (fun a => ⟨a.data, c0 :: cl, [a.data.cols]⟩)) := by
    unfold rechunkIfNeeded
    have hmod : ¬ first.data.rows % rps ≠ 0 := by rw [hfr, hN]; simp
    rw [if_neg hmod, goodCol_false hwf, hr]
    simp only [Bool.and_false, Bool.false_and]
    exact rechunk_all hbd _ hrows
  have hsum := blockdims_sum hbd
  have hdvd := blockdims_dvd hbd (q := rps) ⟨n, by rw [hN, Nat.mul_comm]⟩ ⟨r0 / rps, Nat.mul_comm _ _⟩
  obtain ⟨bs, eb, b1, b2, b3, b4⟩ := blocks_ok (func := func)
    (args := (first :: rest).map (fun a => ⟨a.data, c0 :: cl, [a.data.cols]⟩)) (f := f) (OC := OC) (N := N)
    (G := G) (rps := rps) d (fun _ => True)
    (by
      intro k s m _ hsm
      rw [List.map_map]
      exact H k s m hsm) (c0 :: cl) 0 0 (fun _ _ => trivial) hdvd ⟨0, by simp⟩ (by omega)
  refine ⟨⟨(c0 :: cl).map (· * f), [1354 * kk], tasks func
    ((first :: rest).map (fun a => ⟨a.data, c0 :: cl, [a.data.cols]⟩)) 0 (blockRanges 0 (c0 :: cl))⟩, ?_, rfl, ?_⟩
  · unfold lazyInterp
    simp only [hc, bind, Except.bind, hre]
    simp only [callMapBlocks, List.map_cons, if_neg h0, hk, bind, Except.bind, hf]
  · have hs : ((c0 :: cl).map (· * f)).sum = N * f := by rw [sum_map_mul, hsum]
    refine ⟨hs, ⟨bs, eb, b1, b2, b3⟩, ?_⟩
    have hcols : (bs.map (fun b => b.1.cols)).headD 0 = OC := by
      cases bs with
      | nil => simp at b1
      | cons b bs => exact (b3 b (List.mem_cons_self ..)).1
    have hrow : (bs.map (fun b => b.1.rows)).sum = N * f := by rw [b1, hs]
    refine ⟨_, by simp only [Lazy.compute, eb, bind, Except.bind]; rfl, ⟨hrow, hcols, ?_⟩, ⟨hrow, hcols, ?_⟩⟩
    · intro i j hi hj _
      have := (b4 i j (by rw [hsum]; exact hi) hj).1
      rw [Nat.zero_mul, Nat.zero_add] at this
      exact this
    · intro i j hi hj _
      have := (b4 i j (by rw [hsum]; exact hi) hj).2
      rw [Nat.zero_mul, Nat.zero_add] at this
      exact this

/-- Not whole scans. -/
theorem lazyInterp_valueError {func : Nat → List (Arr2 α) → Except Err (Arr2 α × Arr2 α)} {coarse fine rps : Nat}
    {first : DArr α} {rest : List (DArr α)} (hc : rowsPerScan coarse = .ok rps) (h : ¬ rps ∣ first.data.rows) :
    lazyInterp func coarse fine first rest = .error .valueError := by
  have hm : first.data.rows % rps ≠ 0 := fun e => h (Nat.dvd_of_mod_eq_zero e)
  simp only [lazyInterp, hc, bind, Except.bind, rechunkIfNeeded, if_pos hm]

/-- The first row chunk is smaller than a scan. -/
theorem lazyInterp_zeroDivision {func : Nat → List (Arr2 α) → Except Err (Arr2 α × Arr2 α)} {coarse fine rps r0 : Nat}
    {first : DArr α} {rest : List (DArr α)} {cs : List Nat} (hc : rowsPerScan coarse = .ok rps)
    (hd : rps ∣ first.data.rows) (h0 : first.data.rows ≠ 0) (hwf : first.WF) (hr : first.rowChunks = r0 :: cs)
    (hlt : r0 < rps) : lazyInterp func coarse fine first rest = .error .zeroDivision := by
  have hmod : ¬ first.data.rows % rps ≠ 0 := by simp [Nat.mod_eq_zero_of_dvd hd]
  have e : rechunkIfNeeded rps first rest = .error .zeroDivision := by
    unfold rechunkIfNeeded
    rw [if_neg hmod, goodCol_false hwf, hr]
    simp only [Bool.and_false, Bool.false_and]
    rw [List.mapM_cons, Nat.div_eq_of_lt hlt, Nat.zero_mul]
    simp only [DArr.rechunkRows, blockdims, if_neg h0, if_pos]
    rfl
  simp only [lazyInterp, hc, bind, Except.bind, e]

end Verif.ModisDask
