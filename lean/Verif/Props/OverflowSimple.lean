import Verif.Props.Overflow
import Verif.Props.MxSimple

/-!
# C102 for the simple MODIS interpolator
-/

namespace Verif.Props
open Verif Verif.ModisSimple Verif.Spec.ModisSimple Verif.Spec.Modis Verif.Geo Verif.Ov

section generic
variable {α : Type} [Trig α] {m : Approx α} {L : Limit m}

/-- the library does not enlarge: its results are at most twice the largest number of the array -/
def BoundedLib (m : Approx α) (mc : MapCoord α) : Prop :=
  ∀ (R C : Nat) (v : Fin R → Fin C → α) (y x : α) (M : ℝ), 0 ≤ M → (∀ a b, m.mag (v a b) ≤ M) → m.mag (mc R C v y x) ≤ 2 * M

/-- the same library called from the program with overflow -/
def ovLib (L : Limit m) (mc : MapCoord α) : MapCoord (Ov L) := fun R C v y x => mk (mc R C (fun a b => (v a b).get) y.get x.get)

private theorem coordX_same (hL : (10 : ℝ) ^ 37 ≤ L.bound) {f : Nat} (hf : Factor f) {i : Nat} (hi : i < 10 ^ 20) :
    Same (coordX f i : Ov L) (coordX f i) (10 ^ 21) := by
  have l (C : ℝ) (h : C ≤ 10 ^ 37) : C ≤ L.bound := leL hL h
  have hi' : (i : ℝ) ≤ 10 ^ 20 := by exact_mod_cast hi.le
  have hF : Same (1 / Arith.ofInt (f : ℤ) : Ov L) (1 / Arith.ofInt (f : ℤ)) 2 := by
    have hf2 : (2 : ℝ) ≤ f ∧ (f : ℝ) ≤ 4 := by rcases hf with rfl | rfl <;> norm_num
    have fa : |((f : ℤ) : ℝ)| = f := by rw [Int.cast_natCast, abs_of_nonneg (by positivity)]
    have := (m.mag_ofInt f).2
    rw [fa] at this
    exact (one_same hL).div (Same.ofInt f (C := 5) (by rw [fa]; linarith) (l _ (by norm_num))) (D := 1.5) (by linarith) (by norm_num)
      (by norm_num) (l _ (by norm_num))
  have hI : Same (Arith.ofInt (i : ℤ) : Ov L) (Arith.ofInt (i : ℤ)) (1.25 * 10 ^ 20) := by
    refine Same.ofInt _ ?_ (l _ (by norm_num))
    rw [Int.cast_natCast, abs_of_nonneg (by positivity)]
    linarith
  exact (hI.mul hF (C := 3.125 * 10 ^ 20) (by norm_num) (l _ (by norm_num))).toFloating (by norm_num) (l _ (by norm_num))

private theorem coordY_same (hL : (10 : ℝ) ^ 37 ≤ L.bound) {f : Nat} (hf : Factor f) {j : Nat} (hj : j < 40) :
    Same (coordY f j : Ov L) (coordY f j) 215 := by
  have l (C : ℝ) (h : C ≤ 10 ^ 37) : C ≤ L.bound := leL hL h
  have hj' : (j : ℝ) ≤ 40 := by exact_mod_cast hj.le
  have hf2 : (2 : ℝ) ≤ f ∧ (f : ℝ) ≤ 4 := by rcases hf with rfl | rfl <;> norm_num
  have fa : |((f : ℤ) : ℝ)| = f := by rw [Int.cast_natCast, abs_of_nonneg (by positivity)]
  have hD := (m.mag_ofInt f).2
  rw [fa] at hD
  have hf' : Same (Arith.ofInt (f : ℤ) : Ov L) (Arith.ofInt (f : ℤ)) 5 := Same.ofInt f (by rw [fa]; linarith) (l _ (by norm_num))
  have hF : Same (1 / Arith.ofInt (f : ℤ) : Ov L) (1 / Arith.ofInt (f : ℤ)) 2 :=
    (one_same hL).div hf' (D := 1.5) (by linarith) (by norm_num) (by norm_num) (l _ (by norm_num))
  have hI : Same (Arith.ofInt (j : ℤ) : Ov L) (Arith.ofInt (j : ℤ)) 50 := by
    refine Same.ofInt _ ?_ (l _ (by norm_num))
    rw [Int.cast_natCast, abs_of_nonneg (by positivity)]
    linarith
  have h16 : Same (1 / 16 : Ov L) (1 / 16) 1 :=
    (one_same hL).div (Same.ofNat 16 (C := 20) (by norm_num) (l _ (by norm_num))) (D := 12) (by
      have := (m.mag_ofInt 16).2; norm_num at this; exact this) (by norm_num) (by norm_num) (l _ (by norm_num))
  have h8 : Same (1 / 8 : Ov L) (1 / 8) 1 :=
    (one_same hL).div (Same.ofNat 8 (C := 10) (by norm_num) (l _ (by norm_num))) (D := 6) (by
      have := (m.mag_ofInt 8).2; norm_num at this; exact this) (by norm_num) (by norm_num) (l _ (by norm_num))
  have hs : Same (Arith.ofInt (f : ℤ) * (1 / 16) + 1 / 8 : Ov L) (Arith.ofInt (f : ℤ) * (1 / 16) + 1 / 8) 10 :=
    (hf'.mul h16 (C := 6.25) (by norm_num) (l _ (by norm_num))).add h8 (by norm_num) (l _ (by norm_num))
  exact ((hI.mul hF (C := 125) (by norm_num) (l _ (by norm_num))).sub hs (C := 169) (by norm_num) (l _ (by norm_num))).toFloating
    (by norm_num) (l _ (by norm_num))

private theorem base_same {mc : MapCoord α} (hmc : BoundedLib m mc) (hL : (10 : ℝ) ^ 37 ≤ L.bound) {f C : Nat} (hf : Factor f)
    {V : Nat → Nat → Ov L} {W : Nat → Nat → α} (hV : ∀ a b, a < 10 → b < C → Same (V a b) (W a b) (10 ^ 8)) {j i : Nat} (hj : j < 40)
    (hi : i < 10 ^ 20) : Same (base (ovLib L mc) f C V j i) (base mc f C W j i) (2 * 10 ^ 8) := by
  unfold base ovLib
  have e : (fun (a : Fin 10) (b : Fin C) => (V a b).get) = fun (a : Fin 10) (b : Fin C) => W a b :=
    funext fun a => funext fun b => (hV a b a.2 b.2).1
  have e2 : mc 10 C (fun (a : Fin 10) (b : Fin C) => (V a b).get) (coordY f j : Ov L).get (coordX f i : Ov L).get
      = mc 10 C (fun a b => W a b) (coordY f j) (coordX f i) := by rw [e, (coordY_same hL hf hj).1, (coordX_same hL hf hi).1]
  exact ⟨e2, hmc _ _ _ _ _ _ (by norm_num) fun a b => (hV a b a.2 b.2).2⟩

private theorem right_same {mc : MapCoord α} (hmc : BoundedLib m mc) (hL : (10 : ℝ) ^ 37 ≤ L.bound) {f C : Nat} (hf : Factor f) (hC : f * C < 10 ^ 20)
    {V : Nat → Nat → Ov L} {W : Nat → Nat → α} (hV : ∀ a b, a < 10 → b < C → Same (V a b) (W a b) (10 ^ 8)) {j i : Nat} (hj : j < 40)
    (hi : i < f * C) : Same (right (ovLib L mc) f C V j i) (right mc f C W j i) (10 ^ 10) := by
  have l (C : ℝ) (h : C ≤ 10 ^ 37) : C ≤ L.bound := leL hL h
  have b (k : Nat) (hk : k < f * C) := base_same hmc hL hf hV hj (hk.trans hC)
  have hn : nRight f ≤ 3 := by unfold nRight; split <;> omega
  unfold right
  simp only
  split
  · rename_i hq
    have hk : Same (Arith.ofInt (((i - (f * C - nRight f) : Nat) : Int) + 1) : Ov L) (Arith.ofInt (((i - (f * C - nRight f) : Nat) : Int) + 1)) 5 := by
      have h3 : i - (f * C - nRight f) ≤ 3 := by omega
      have h3' : ((i - (f * C - nRight f) : Nat) : ℝ) ≤ 3 := by exact_mod_cast h3
      refine Same.ofInt _ ?_ (l _ (by norm_num))
      push_cast
      rw [abs_of_nonneg (by positivity)]
      linarith
    exact ((b i hi).add (((b _ (by omega)).sub (b _ (by omega)) (C := 5 * 10 ^ 8) (by norm_num) (l _ (by norm_num))).mul hk (C := 3.125 * 10 ^ 9) (by norm_num)
      (l _ (by norm_num))) (C := 10 ^ 10) (by norm_num) (l _ (by norm_num)))
  · exact (b i hi).mono (by norm_num)

/-- the straight line; the two rows are apart -/
private theorem line_same (hL : (10 : ℝ) ^ 37 ≤ L.bound) {f st o j : Nat} (hf : Factor f) (ho : o + st < 40) (hj : j < 40)
    (hgap : 0.25 ≤ m.mag (coordY f (o + st) - coordY f o : α)) {v : Nat → Ov L} {w : Nat → α} (h1 : Same (v (o + st)) (w (o + st)) (10 ^ 10))
    (h0 : Same (v o) (w o) (10 ^ 10)) : Same (line f st o v j) (line f st o w j) (10 ^ 17) := by
  have l (C : ℝ) (h : C ≤ 10 ^ 37) : C ≤ L.bound := leL hL h
  have y1 := coordY_same hL hf ho
  have y0 := coordY_same hL hf (j := o) (by omega)
  have yj := coordY_same hL hf hj
  have hm := (h1.sub h0 (C := 2.5 * 10 ^ 10) (by norm_num) (l _ (by norm_num))).div (y1.sub y0 (C := 538) (by norm_num) (l _ (by norm_num)))
    (C := 1.25 * 10 ^ 11) hgap (by norm_num) (by norm_num) (l _ (by norm_num))
  exact (hm.mul yj (C := 4 * 10 ^ 13) (by norm_num) (l _ (by norm_num))).add
    (h1.sub (hm.mul y1 (C := 4 * 10 ^ 13) (by norm_num) (l _ (by norm_num))) (C := 10 ^ 14) (by norm_num) (l _ (by norm_num))) (by norm_num) (l _ (by norm_num))

/-- one pixel -/
private theorem spixel_same {mc : MapCoord α} (hmc : BoundedLib m mc) (hL : (10 : ℝ) ^ 37 ≤ L.bound) (hW : (10 : ℝ) ^ 75 ≤ L.wide) {f C : Nat}
    (hf : Factor f) (hC : f * C < 10 ^ 20) (hgap : ∀ o, o + step f < 10 * f → 0.25 ≤ m.mag (coordY f (o + step f) - coordY f o : α))
    {lon lat : Nat → Nat → α} {r k : Nat} (hk : k < f * C) (hin : ∀ i j, r / (10 * f) * 10 ≤ i → i < r / (10 * f) * 10 + 10 → j < C →
      m.mag (lon i j) ≤ 10 ^ 10 ∧ m.mag (lat i j) ≤ 10 ^ 10) :
    Same2 (pixel (ovLib L mc) f C (fun i j => mk (lon i j)) (fun i j => mk (lat i j)) r k) (pixel mc f C lon lat r k) (10 ^ 4) := by
  have hr : r % (10 * f) < 10 * f := Nat.mod_lt _ (by rcases hf with rfl | rfl <;> norm_num)
  have h40 : 10 * f ≤ 40 := by rcases hf with rfl | rfl <;> norm_num
  have tie (i j : Nat) (hi : i < 10) (hj : j < C) (n : Nat) :
      Same (ties (α := Ov L) (fun i j => mk (lon i j)) (fun i j => mk (lat i j)) (r / (10 * f) * 10 + i) j n)
        (ties lon lat (r / (10 * f) * 10 + i) j n) (10 ^ 8) := by
    obtain ⟨p1, p2⟩ := hin (r / (10 * f) * 10 + i) j (by omega) (by omega) hj
    obtain ⟨q1, q2, q3⟩ := cyLonlat2xyz_same hL (radius_same hL) (Same.input p1) (Same.input p2)
    unfold ties comp tieXyz
    split
    · exact q1
    · split
      · exact q2
      · exact q3
  have fine_s (n : Nat) : Same (fine (ovLib L mc) f C (fun a b => ties (fun i j => mk (lon i j)) (fun i j => mk (lat i j)) (r / (10 * f) * 10 + a) b n) (r % (10 * f)) k)
      (fine mc f C (fun a b => ties lon lat (r / (10 * f) * 10 + a) b n) (r % (10 * f)) k) (7 * 10 ^ 35) := by
    have rs (j : Nat) (hj : j < 40) := right_same hmc hL hf hC (V := fun a b => ties (α := Ov L) (fun i j => mk (lon i j)) (fun i j => mk (lat i j)) (r / (10 * f) * 10 + a) b n)
      (W := fun a b => ties lon lat (r / (10 * f) * 10 + a) b n) (fun a b ha hb => tie a b ha hb n) hj hk
    unfold fine
    have hst : f / 2 + step f < 10 * f ∧ 10 * f - f / 2 - step f - 1 + step f < 10 * f := by rcases hf with rfl | rfl <;> simp [step]
    split
    · exact (line_same hL hf (by omega) (by omega) (hgap _ hst.1) (rs _ (by omega)) (rs _ (by omega))).mono (by norm_num)
    · split
      · exact (line_same hL hf (by omega) (by omega) (hgap _ hst.2) (rs _ (by omega)) (rs _ (by omega))).mono (by norm_num)
      · exact (rs _ (by omega)).mono (by norm_num)
  exact cyXyz2lonlat_same hL hW (radius_same hL) radius_ge (cyThr_same hL) true (fine_s 0) (fine_s 1) (fine_s 2)

end generic

variable {q : Mixed} {ε : ℝ}

private theorem gap_mx (h : Mx.Prec q ε) {f : Nat} (hf : Factor f) (o : Nat) (ho : o + step f < 10 * f) :
    0.25 ≤ (Mx.approx h).mag (coordY f (o + step f) - coordY f o : Mx q) := by
  rw [Mx.simple_coordY h.hp hf ho, Mx.simple_coordY h.hp hf (by omega : o < 10 * f)]
  have hv : (Mx.approx h).value (.sgl (yPos f (o + step f)) - .sgl (yPos f o)) = some (q.s.rnd (yPos f (o + step f) - yPos f o)) := rfl
  rw [(Mx.approx h).mag_some hv]
  have h1 := (Err.rel_rnd h.s (yPos f (o + step f) - yPos f o)).le_abs
  have h2 : 0.5 ≤ |yPos f (o + step f) - yPos f o| := by
    rcases hf with rfl | rfl <;> norm_num [yPos, step] <;> (rw [le_abs]; left; ring_nf; norm_num)
  have := h.le'
  norm_num at *
  nlinarith

/-- **C102 (simple MODIS interpolator)**: with the same formats as in `C102_modis`, for both conversions, any number of scans, up to `10^19` columns
and all longitudes and latitudes that are at most `10^10` or not numbers, the result is the same as in arithmetic without overflow, for
every `map_coordinates` whose results are at most twice the largest number of its array. -/
theorem C102_simple (h : Mx.Prec q ε) (maxS maxD : ℝ) (hS : (10 : ℝ) ^ 37 ≤ maxS) (hD : (10 : ℝ) ^ 75 ≤ maxD) (c : SConv) (mc : MapCoord (Mx q))
    (hmc : BoundedLib (Mx.approx h) mc) (n : Nat) (lon lat : Arr2 (Mx q)) (hin : SInput n lon lat) (hw : lon.cols < 10 ^ 19) (h1 : Moderate lon) (h2 : Moderate lat)
    (junk : Nat → Nat → Nat → Nat → Mx q) (junk' : Nat → Nat → Nat → Nat → Ov (mxLimit h maxS maxD)) :
    ∃ out out', c.run mc lon lat junk = .ok out ∧
      c.run (ovLib (mxLimit h maxS maxD) mc) (ovArr (mxLimit h maxS maxD) lon) (ovArr _ lat) junk' = .ok out' ∧
      (out'.1.rows = out.1.rows ∧ out'.1.cols = out.1.cols ∧ out'.2.rows = out.2.rows ∧ out'.2.cols = out.2.cols) ∧
      ∀ r k, r < lon.rows * c.factor → k < lon.cols * c.factor →
        (out'.1.cell r k).get = out.1.cell r k ∧ (out'.2.cell r k).get = out.2.cell r k := by
  obtain ⟨out, e, p1, p2⟩ := srun_pixel c mc hin junk
  obtain ⟨out', e', p1', p2'⟩ := srun_pixel c (ovLib (mxLimit h maxS maxD) mc) (n := n) (lon := ovArr (mxLimit h maxS maxD) lon) (lat := ovArr _ lat)
    ⟨hin.cols, hin.lonRows, hin.latRows, hin.latCols⟩ junk'
  have hL : (10 : ℝ) ^ 37 ≤ (mxLimit h maxS maxD).bound := le_min hS (le_trans (by norm_num) hD)
  have hmag (a : Arr2 (Mx q)) (ha : Moderate a) (i j : Nat) (hi : i < a.rows) (hj : j < a.cols) :
      (Mx.approx h).mag (a.cell i j) ≤ 10 ^ 10 := by
    cases ev : Mx.value (a.cell i j) with
    | none => rw [(Mx.approx h).mag_none ev]; norm_num
    | some x => rw [(Mx.approx h).mag_some ev]; exact ha i j hi hj x ev
  refine ⟨out, out', e, e', ⟨p1'.rows.trans p1.rows.symm, p1'.cols.trans p1.cols.symm, p2'.rows.trans p2.rows.symm,
    p2'.cols.trans p2.cols.symm⟩, ?_⟩
  intro r k hr hk
  have hf4 : c.factor ≤ 4 ∧ 0 < c.factor := by cases c <;> simp [SConv.factor]
  have hC : c.factor * lon.cols < 10 ^ 20 := by
    calc c.factor * lon.cols ≤ 4 * lon.cols := Nat.mul_le_mul_right _ hf4.1
      _ < 10 ^ 20 := by omega
  have hs := spixel_same (L := mxLimit h maxS maxD) hmc hL hD c.factor_ok hC (gap_mx h c.factor_ok) (lon := lon.cell) (lat := lat.cell) (r := r) (k := k)
    (by rw [Nat.mul_comm]; exact hk) (by
      intro i j h3 h4 h5
      have h6 : r / (10 * c.factor) < n := by
        apply Nat.div_lt_of_lt_mul
        rw [hin.lonRows] at hr
        calc r < n * 10 * c.factor := hr
          _ = 10 * c.factor * n := by ring
      have h7 : i < n * 10 := by omega
      exact ⟨hmag lon h1 i j (by rw [hin.lonRows]; exact h7) h5, hmag lat h2 i j (by rw [hin.latRows]; exact h7) (by rw [hin.latCols]; exact h5)⟩)
  rw [p1.cell r k hr hk trivial, p2.cell r k hr hk trivial, p1'.cell r k hr hk trivial, p2'.cell r k hr hk trivial]
  exact ⟨hs.1.1, hs.2.1⟩

/-- the nearest value is a library as assumed -/
example (h : Mx.Prec q ε) (pick : Mx q → Nat) : BoundedLib (Mx.approx h) (fun R C v y x =>
    if hh : 0 < R ∧ 0 < C then v ⟨pick y % R, Nat.mod_lt _ hh.1⟩ ⟨pick x % C, Nat.mod_lt _ hh.2⟩ else .bad) := by
  intro R C v y x M hM hv
  dsimp only
  split
  · exact (hv _ _).trans (by linarith)
  · rw [(Mx.approx h).mag_none rfl]; positivity

end Verif.Props
