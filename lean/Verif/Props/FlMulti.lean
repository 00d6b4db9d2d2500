import Verif.Props.Multilinear
import Verif.Proofs.FlLin
import Mathlib.Algebra.Order.Floor.Semiring

/-!
# C60, C61: multilinear interpolation with rounding
-/

set_option linter.unusedSectionVars false

namespace Verif.Props
open Verif Verif.Spec Verif.Multilinear Verif.Grid Fl
variable {r : Rounding}

/-- `MultilinearInterpolator(smin, smax, orders, values)` -/
def flMli (G : List (Axis ℝ)) (values : Arr2 (Fl r)) : MLI (Fl r) :=
  ⟨G.map (fun g => val g.lo), G.map (fun g => val g.hi), G.map (fun g => (g.n : Int)), some values⟩

/-- the C conversion of a nonnegative floating point number to `int` -/
def CTruncFl (cast : Fl r → Int) : Prop :=
  ∀ x : ℝ, 0 ≤ x → x < 2 ^ 31 → ((cast (.val x) : Int) : ℝ) ≤ x ∧ x < (cast (.val x) : Int) + 1

theorem sized_of_grid_fl {G : List (Axis ℝ)} (hG : GridOk G) :
    Sized (Arr1.ofList (0 : Fl r) (G.map (fun g => val g.lo))) (Arr1.ofList 0 (G.map (fun g => val g.hi)))
      (Arr1.ofList 0 (G.map (fun g => (g.n : Int)))) (G.map Axis.n) where
  min := by simp [Arr1.ofList]
  max := by simp [Arr1.ofList]
  len := by simp [Arr1.ofList]
  orders := by
    intro k h
    simp only [List.length_map] at h
    simp [Arr1.ofList, List.getD, List.getElem?_eq_getElem h]
  two := by
    intro n hn
    obtain ⟨g, hg, rfl⟩ := List.mem_map.1 hn
    exact hG.two g hg
  total := hG.total

theorem flMli_ok (cast : Fl r → Int) (reorder : Nat → List Nat → List Nat) (junk : Nat → Nat → Fl r) (G : List (Axis ℝ))
    (hG : GridOk G) (values s : Arr2 (Fl r)) (hV : (G.map Axis.n).prod ≤ values.cols) (hs : s.rows = G.length)
    (hn : s.cols < 2 ^ 31) (hre : ∀ i, (reorder i (List.range s.cols)).Perm (List.range s.cols)) :
    ∃ o, (flMli G values).interpolate cast reorder junk s = .ok o ∧ o.rows = values.rows ∧ o.cols = s.cols ∧
      ∀ i < values.rows, ∀ j < s.cols, ∀ p : List ℝ, p.length = G.length →
        (∀ k (h : k < p.length), s.cell k j = val p[k]) →
        o.cell i j = mlin (List.zipWith (fun g x => coord cast (val g.lo) (val g.hi) g.n (val x)) G p)
          (fun is => values.cell i (ravel (G.map Axis.n) is)) := by
  obtain ⟨o, e, h1, h2, h3⟩ := multi_ok cast reorder junk _ _ _ _ values s (sized_of_grid_fl hG) (by simpa using hG.one)
    (by simpa using hG.four) (by simpa using hs) hn hV hre
  refine ⟨o, e, h1, h2, ?_⟩
  intro i hi j hj p hp hat
  rw [h3 i hi j hj]
  congr 1
  apply List.ext_getElem
  · simp [coords, hp]
  · intro k a1 a2
    have hk : k < G.length := by simpa [coords] using a1
    simp [coords, Arr1.ofList, List.getD, List.getElem?_eq_getElem hk, hat k (by omega)]

theorem cells_lt_fl (cast : Fl r → Int) (G : List (Axis ℝ)) (h2 : ∀ g ∈ G, 2 ≤ g.n) (p : List ℝ) (hp : p.length = G.length) :
    List.Forall₂ (fun (c : Nat × Fl r) n => c.1 + 1 < n)
      (List.zipWith (fun g x => coord cast (val g.lo) (val g.hi) g.n (val x)) G p) (G.map Axis.n) := by
  induction G generalizing p with
  | nil => simp
  | cons g G ih =>
    match p, hp with
    | x :: p, hp =>
      simp only [List.zipWith_cons_cons, List.map_cons]
      exact List.Forall₂.cons (coord_lt _ _ _ _ _ (h2 g (by simp))) (ih (fun g' hg' => h2 g' (by simp [hg'])) p
        (by simpa using hp))

/-! ### the coordinates -/

/-- normalised coordinate as computed -/
noncomputable def flNorm (r : Rounding) (a b : ℝ) (n : Nat) (x : ℝ) : ℝ := r.rnd (weight r a b x * ((n : ℝ) - 1))

theorem rnd_pred {n : Nat} (hn : 1 ≤ n) (h : n ≤ 2 ^ r.p) : r.rnd ((n : ℝ) - 1) = (n : ℝ) - 1 := by
  have := rep_int r.hp1 (m := (n : ℤ) - 1) (by
    rw [abs_of_nonneg (by omega)]
    have : (n : ℤ) ≤ 2 ^ r.p := by exact_mod_cast h
    omega)
  push_cast at this
  exact r.rnd_rep this

theorem coord_fl (cast : Fl r → Int) {a b : ℝ} {n : Nat} (x : ℝ) (hab : a ≠ b) (hn : 1 ≤ n) (h : n ≤ 2 ^ r.p) :
    coord cast (val a) (val b) n (val x)
      = ((max (min (cast (val (flNorm r a b n x))) ((n : Int) - 2)) 0).toNat,
        val (flNorm r a b n x) -
          Arith.ofInt (((max (min (cast (val (flNorm r a b n x))) ((n : Int) - 2)) 0).toNat : Nat) : Int)) := by
  unfold coord
  have e : ((val x : Fl r) - val a) / (val b - val a) * Arith.ofInt ((n : Int) - 1) = val (flNorm r a b n x) := by
    rw [val_sub, val_sub, val_div_of_ne _ (fun h => hab (sub_eq_zero.1 (r.rnd_eq_zero.1 h)).symm), ofInt_eq, val_mul]
    unfold flNorm weight
    push_cast
    rw [rnd_pred hn h]
  rw [e]

/-- a number less an integer not above it, if the rest is at most 1 -/
theorem rep_frac {p : Nat} (hp : 1 ≤ p) {t : ℝ} (ht : Rep p t) {q : Nat} (h0 : (q : ℝ) ≤ t) (h1 : t - q ≤ 1) :
    Rep p (t - q) := by
  obtain ⟨m, e, hm, rfl⟩ := ht
  rcases le_or_gt 0 e with he | he
  · -- an integer
    obtain ⟨d, rfl⟩ : ∃ d : ℕ, e = d := ⟨e.toNat, by omega⟩
    have e1 : (m : ℝ) * 2 ^ (d : ℤ) - q = ((m * 2 ^ d - q : ℤ) : ℝ) := by push_cast; rw [zpow_natCast]
    rw [e1] at h1 ⊢
    have h0' : (0 : ℝ) ≤ ((m * 2 ^ d - q : ℤ) : ℝ) := by rw [← e1]; linarith
    have g0 : 0 ≤ m * 2 ^ d - (q : ℤ) := by exact_mod_cast h0'
    have g1 : m * 2 ^ d - (q : ℤ) ≤ 1 := by exact_mod_cast h1
    refine rep_int hp ?_
    rw [abs_of_nonneg g0]
    exact g1.trans (one_le_pow₀ (by norm_num))
  · obtain ⟨d, rfl⟩ : ∃ d : ℕ, e = -d := ⟨(-e).toNat, by omega⟩
    have pd : (0 : ℝ) < 2 ^ (-(d : ℤ)) := by positivity
    have e1 : (m : ℝ) * 2 ^ (-(d : ℤ)) - q = ((m - q * 2 ^ d : ℤ) : ℝ) * 2 ^ (-(d : ℤ)) := by
      push_cast
      rw [sub_mul, mul_assoc, ← zpow_natCast, ← zpow_add₀ (by norm_num)]
      simp
    refine ⟨m - q * 2 ^ d, -d, ?_, e1⟩
    have g0 : (0 : ℝ) ≤ ((m - q * 2 ^ d : ℤ) : ℝ) := by
      refine nonneg_of_mul_nonneg_left ?_ pd
      rw [← e1]; linarith
    have g0' : 0 ≤ m - q * 2 ^ d := by exact_mod_cast g0
    have : 0 ≤ (q : ℤ) * 2 ^ d := by positivity
    rw [abs_of_nonneg g0']
    have := (abs_lt.1 hm).2
    omega

/-- cell and weight of the normalised coordinate `t` in a row of `n` nodes -/
noncomputable def cellOf (n : Nat) (t : ℝ) : Nat × ℝ := (min ⌊t⌋₊ (n - 2), t - (min ⌊t⌋₊ (n - 2) : ℕ))

theorem cellOf_range {n : Nat} {t : ℝ} (hn : 2 ≤ n) (h0 : 0 ≤ t) (h1 : t ≤ (n : ℝ) - 1) : 0 ≤ (cellOf n t).2 ∧ (cellOf n t).2 ≤ 1 := by
  have hf := Nat.floor_le h0
  have hf2 := Nat.lt_floor_add_one t
  unfold cellOf
  rcases le_total ⌊t⌋₊ (n - 2) with h | h
  · rw [min_eq_left h]
    exact ⟨by simp only; linarith, by simp only; linarith⟩
  · rw [min_eq_right h]
    have h' : ((n - 2 : ℕ) : ℝ) ≤ ⌊t⌋₊ := by exact_mod_cast h
    have e : ((n - 2 : ℕ) : ℝ) = (n : ℝ) - 2 := by push_cast [hn]; ring
    rw [e] at h' ⊢
    exact ⟨by simp only; linarith, by simp only; linarith⟩

/-- inside the grid: the coordinate is in range, near the exact one, and the weight is exact -/
theorem coord_inside (cast : Fl r → Int) (hcast : CTruncFl cast) (hp : 3 ≤ r.p) {a b x : ℝ} {n : Nat} (hab : a < b) (h1 : a ≤ x)
    (h2 : x ≤ b) (hn : 2 ≤ n) (hn31 : n < 2 ^ 31) (h : n ≤ 2 ^ r.p) :
    coord cast (val a) (val b) n (val x) = ((cellOf n (flNorm r a b n x)).1, val (cellOf n (flNorm r a b n x)).2) ∧
    0 ≤ flNorm r a b n x ∧ flNorm r a b n x ≤ (n : ℝ) - 1 ∧
    |flNorm r a b n x - Multilinear.norm a b n x| ≤ 6 * r.u * Multilinear.norm a b n x := by
  have hn2 : (2 : ℝ) ≤ n := by exact_mod_cast hn
  obtain ⟨w0, w1⟩ := weight_range (r := r) hab h1 h2
  have t0 : 0 ≤ flNorm r a b n x := r.rnd_nonneg (mul_nonneg w0 (by linarith))
  have t1 : flNorm r a b n x ≤ (n : ℝ) - 1 := by
    have hrep : Rep r.p ((n : ℝ) - 1) := by
      have := r.rep ((n : ℝ) - 1)
      rwa [rnd_pred (by omega) h] at this
    exact r.rnd_le hrep (by nlinarith)
  have hrange := cellOf_range hn t0 t1
  refine ⟨?_, t0, t1, ?_⟩
  · rw [coord_fl cast x hab.ne (by omega) h]
    set t := flNorm r a b n x with ht
    have hc := hcast t t0 (by
      have : (n : ℝ) < 2 ^ 31 := by exact_mod_cast hn31
      linarith)
    have hfl : ⌊t⌋₊ = (cast (val t)).toNat := by
      have hz0 : 0 ≤ cast (val t) := by
        have : (-1 : ℝ) < (cast (val t) : ℝ) := by linarith [hc.2]
        have : (-1 : ℤ) < cast (val t) := by exact_mod_cast this
        omega
      rw [Nat.floor_eq_iff t0]
      have e2 : (((cast (val t)).toNat : Nat) : ℝ) = (cast (val t) : ℝ) := by
        have : (((cast (val t)).toNat : Nat) : Int) = cast (val t) := Int.toNat_of_nonneg hz0
        exact_mod_cast congrArg (Int.cast (R := ℝ)) this
      rw [e2]
      exact hc
    have hq : (max (min (cast (val t)) ((n : Int) - 2)) 0).toNat = min ⌊t⌋₊ (n - 2) := by
      rw [hfl]; omega
    rw [hq]
    have hrt : Rep r.p t := r.rep _
    have hle : ((min ⌊t⌋₊ (n - 2) : ℕ) : ℝ) ≤ t := by
      have := hrange.1
      unfold cellOf at this
      simp only at this
      linarith
    have hfr : Rep r.p (t - (min ⌊t⌋₊ (n - 2) : ℕ)) := rep_frac r.hp1 hrt hle (by
      have := hrange.2
      unfold cellOf at this
      simpa using this)
    have hqe : (Arith.ofInt ((min ⌊t⌋₊ (n - 2) : ℕ) : Int) : Fl r) = val ((min ⌊t⌋₊ (n - 2) : ℕ) : ℝ) := by
      rw [ofInt_eq, Fl.val.injEq]
      have := rep_int r.hp1 (m := ((min ⌊t⌋₊ (n - 2) : ℕ) : ℤ)) (by
        rw [abs_of_nonneg (by positivity)]
        have : ((min ⌊t⌋₊ (n - 2) : ℕ) : ℤ) ≤ (n : ℤ) := by omega
        have h' : (n : ℤ) ≤ 2 ^ r.p := by exact_mod_cast h
        omega)
      rw [r.rnd_rep this]; simp
    rw [hqe, val_sub, r.rnd_rep hfr]
    rfl
  · set W := (x - a) / (b - a) with hW
    have hW0 : 0 ≤ W := div_nonneg (by linarith) (by linarith)
    have hwe := weight_err (r := r) hp x hab.ne
    rw [← hW, abs_of_nonneg hW0] at hwe
    have hre := r.abs_rnd_sub_le_u (weight r a b x * ((n : ℝ) - 1))
    rw [abs_of_nonneg (mul_nonneg w0 (by linarith))] at hre
    have hw := abs_le.1 hwe
    have hu := r.u_le
    have hu0 := r.u_pos
    have hN : Multilinear.norm a b n x = W * ((n : ℝ) - 1) := rfl
    rw [hN]
    have hn1 : 0 ≤ (n : ℝ) - 1 := by linarith
    have k1 : |weight r a b x * ((n : ℝ) - 1) - W * ((n : ℝ) - 1)| ≤ 4 * r.u * W * ((n : ℝ) - 1) := by
      rw [← sub_mul, abs_mul, abs_of_nonneg hn1]
      exact mul_le_mul_of_nonneg_right hwe hn1
    have k2 : weight r a b x * ((n : ℝ) - 1) ≤ 2 * (W * ((n : ℝ) - 1)) := by
      have : weight r a b x ≤ 2 * W := by nlinarith [hw.2]
      nlinarith
    have hWn : 0 ≤ W * ((n : ℝ) - 1) := mul_nonneg hW0 hn1
    calc |flNorm r a b n x - W * ((n : ℝ) - 1)|
        = |(flNorm r a b n x - weight r a b x * ((n : ℝ) - 1)) + (weight r a b x * ((n : ℝ) - 1) - W * ((n : ℝ) - 1))| := by
          ring_nf
      _ ≤ _ := abs_add_le _ _
      _ ≤ r.u * (weight r a b x * ((n : ℝ) - 1)) + 4 * r.u * W * ((n : ℝ) - 1) := add_le_add hre k1
      _ ≤ r.u * (2 * (W * ((n : ℝ) - 1))) + 4 * r.u * W * ((n : ℝ) - 1) := by gcongr
      _ = _ := by ring

/-- exact multilinear interpolation of the values `W` at the normalised coordinates `ts` -/
noncomputable def interpAt (ns : List Nat) (ts : List ℝ) (W : List Nat → ℝ) : ℝ := mlinR (List.zipWith cellOf ns ts) W

/-- **C61 (multilinear)**: with rounding, at every point inside a grid of one to four dimensions with fewer nodes per
dimension than `2^p`, the result is within `6 d u M` of the exact multilinear interpolation at normalised coordinates that
differ from the exact ones by at most `6 u` relatively (`M` bounds the values, `d` is the number of dimensions). -/
theorem C61_multilinear (hp : 5 ≤ r.p) (cast : Fl r → Int) (hcast : CTruncFl cast) (reorder : Nat → List Nat → List Nat)
    (junk : Nat → Nat → Fl r) (G : List (Axis ℝ)) (hG : GridOk G) (hlt : ∀ g ∈ G, g.lo < g.hi) (hbits : ∀ g ∈ G, g.n ≤ 2 ^ r.p)
    (values s : Arr2 (Fl r)) (hV : (G.map Axis.n).prod ≤ values.cols) (hs : s.rows = G.length) (hn : s.cols < 2 ^ 31)
    (hre : ∀ i, (reorder i (List.range s.cols)).Perm (List.range s.cols)) :
    ∃ o, (flMli G values).interpolate cast reorder junk s = .ok o ∧ o.rows = values.rows ∧ o.cols = s.cols ∧
      ∀ i < values.rows, ∀ (w : Nat → ℝ) (M : ℝ), (∀ k < (G.map Axis.n).prod, values.cell i k = val (w k)) → (∀ k, |w k| ≤ M) →
        ∀ j < s.cols, ∀ p : List ℝ, Spec.Inside G p → (∀ k (h : k < p.length), s.cell k j = val p[k]) →
          ∃ v ts, o.cell i j = val v ∧
            List.Forall₂ (fun (g : Axis ℝ × ℝ) t => |t - Multilinear.norm g.1.lo g.1.hi g.1.n g.2|
              ≤ 6 * r.u * Multilinear.norm g.1.lo g.1.hi g.1.n g.2) (G.zip p) ts ∧
            |v - interpAt (G.map Axis.n) ts (fun is => w (ravel (G.map Axis.n) is))| ≤ 6 * G.length * r.u * M := by
  obtain ⟨o, e, h1, h2, h3⟩ := flMli_ok cast reorder junk G hG values s hV hs hn hre
  refine ⟨o, e, h1, h2, ?_⟩
  intro i hi w M hw hM j hj p hin hat
  have hlen : p.length = G.length := hin.length_eq
  rw [h3 i hi j hj p hlen hat]
  set ns := G.map Axis.n with hns
  have hcong := mlin_congr _ _ (cells_lt_fl cast G hG.two p hlen) (fun is => values.cell i (ravel ns is))
    (fun is => val (w (ravel ns is))) (fun is his => hw _ (ravel_lt _ _ his))
  rw [hcong]
  set ts := List.zipWith (fun (g : Axis ℝ) x => flNorm r g.lo g.hi g.n x) G p with hts
  have hn31 : ∀ g ∈ G, g.n < 2 ^ 31 := fun g hg => n_lt hG hg
  have key : List.zipWith (fun (g : Axis ℝ) x => coord cast (val g.lo : Fl r) (val g.hi) g.n (val x)) G p
        = (List.zipWith cellOf ns ts).map (fun c => (c.1, val c.2)) ∧
      List.Forall₂ (fun (g : Axis ℝ × ℝ) t => |t - Multilinear.norm g.1.lo g.1.hi g.1.n g.2|
        ≤ 6 * r.u * Multilinear.norm g.1.lo g.1.hi g.1.n g.2) (G.zip p) ts ∧
      (∀ c ∈ List.zipWith cellOf ns ts, 0 ≤ c.2 ∧ c.2 ≤ 1) := by
    have htwo := hG.two
    rw [hns, hts]
    clear hcong h3 hV hs hat e hw hns hts ts ns hG hlen
    induction hin with
    | nil => simp
    | @cons x g p G hx _ ih =>
      obtain ⟨i1, i2, i3⟩ := ih (fun g' hg' => hlt g' (by simp [hg'])) (fun g' hg' => hbits g' (by simp [hg']))
        (fun g' hg' => hn31 g' (by simp [hg'])) (fun g' hg' => htwo g' (by simp [hg']))
      obtain ⟨c1, c2, c3, c4⟩ := coord_inside cast hcast (by omega) (hlt g (by simp)) hx.1 hx.2 (htwo g (by simp))
        (hn31 g (by simp)) (hbits g (by simp))
      simp only [List.zipWith_cons_cons, List.map_cons, List.zip_cons_cons]
      refine ⟨by rw [c1, i1], List.Forall₂.cons c4 i2, ?_⟩
      intro c hc
      rcases List.mem_cons.1 hc with rfl | hc
      · exact cellOf_range (htwo g (by simp)) c2 c3
      · exact i3 c hc
  obtain ⟨k1, k2, k3⟩ := key
  rw [k1]
  obtain ⟨v, ev, herr⟩ := mlin_err (r := r) (List.zipWith cellOf ns ts) (fun is => w (ravel ns is))
  refine ⟨v, ts, ev, k2, herr.1.trans ?_⟩
  have hl : (List.zipWith cellOf ns ts).length = G.length := by simp [hns, hts, hlen]
  rw [hl]
  have hM0 : 0 ≤ M := (abs_nonneg _).trans (hM 0)
  have hb := mlinAbs_le _ k3 (fun is => w (ravel ns is)) (fun _ => hM _)
  have hu5 : r.u ≤ 1 / 32 := by
    unfold Rounding.u
    have : (2 : ℝ) ^ (-(r.p : ℤ)) ≤ 2 ^ (-5 : ℤ) := zpow_le_zpow_right₀ (by norm_num) (by omega)
    exact this.trans (by norm_num)
  have hG4 : (G.length : ℝ) ≤ 4 := by exact_mod_cast hG.four
  have hu0 := r.u_pos
  have hpow := pow_u_le (r := r) (3 * G.length) (by push_cast; nlinarith)
  have h0 : 0 ≤ (1 + r.u) ^ (3 * G.length) - 1 := by
    have := one_le_pow_u (r := r) (3 * G.length)
    linarith
  calc _ ≤ ((1 + r.u) ^ (3 * G.length) - 1) * M := mul_le_mul_of_nonneg_left hb h0
    _ ≤ (2 * ((3 * G.length : ℕ) : ℝ) * r.u) * M := mul_le_mul_of_nonneg_right hpow hM0
    _ = _ := by push_cast; ring

/-! ### C60 -/

theorem coord_lo (cast : Fl r → Int) (hcast : CTruncFl cast) {a b : ℝ} {n : Nat} (hab : a ≠ b) (hn : 2 ≤ n)
    (h : n ≤ 2 ^ r.p) : coord cast (val a) (val b) n (val a) = (0, val 0) := by
  have ht : flNorm r a b n a = 0 := by simp [flNorm, weight]
  rw [coord_fl cast a hab (by omega) h, ht]
  have hc := hcast 0 le_rfl (by norm_num)
  have hz : cast (val 0) = 0 := by
    have c1 : cast (val 0) ≤ 0 := by exact_mod_cast hc.1
    have c2 : (-1 : ℝ) < (cast (val 0) : ℝ) := by linarith [hc.2]
    have c2' : (-1 : ℤ) < cast (val 0) := by exact_mod_cast c2
    omega
  rw [hz]
  have e : (max (min (0 : Int) ((n : Int) - 2)) 0).toNat = 0 := by omega
  rw [e, ofInt_eq]
  simp

theorem coord_hi (cast : Fl r → Int) (hcast : CTruncFl cast) {a b : ℝ} {n : Nat} (hab : a ≠ b) (hn : 2 ≤ n)
    (hn31 : n < 2 ^ 31) (h : n ≤ 2 ^ r.p) : coord cast (val a) (val b) n (val b) = (n - 2, val 1) := by
  have hd : r.rnd (b - a) ≠ 0 := fun h => hab (sub_eq_zero.1 (r.rnd_eq_zero.1 h)).symm
  have ht : flNorm r a b n b = (n : ℝ) - 1 := by
    unfold flNorm weight
    rw [div_self hd, r.rnd_one, one_mul, rnd_pred (by omega) h]
  rw [coord_fl cast b hab (by omega) h, ht]
  have hn2 : (2 : ℝ) ≤ n := by exact_mod_cast hn
  have hc := hcast ((n : ℝ) - 1) (by linarith) (by
    have : (n : ℝ) < 2 ^ 31 := by exact_mod_cast hn31
    linarith)
  have hz : cast (val ((n : ℝ) - 1)) = (n : Int) - 1 := by
    have c1 : cast (val ((n : ℝ) - 1)) ≤ (n : Int) - 1 := by exact_mod_cast hc.1
    have c2 : ((n : ℝ) - 2) < (cast (val ((n : ℝ) - 1)) : ℝ) := by linarith [hc.2]
    have c2' : (n : Int) - 2 < cast (val ((n : ℝ) - 1)) := by exact_mod_cast c2
    omega
  rw [hz]
  have e : (max (min ((n : Int) - 1) ((n : Int) - 2)) 0).toNat = n - 2 := by omega
  rw [e, ofInt_eq, val_sub]
  have e2 : (((n - 2 : ℕ) : ℤ) : ℝ) = (n : ℝ) - 2 := by push_cast [hn]; ring
  have hr : r.rnd ((n : ℝ) - 2) = (n : ℝ) - 2 := by
    have := rep_int r.hp1 (m := (n : ℤ) - 2) (by
      rw [abs_of_nonneg (by omega)]
      have : (n : ℤ) ≤ 2 ^ r.p := by exact_mod_cast h
      omega)
    push_cast at this
    exact r.rnd_rep this
  rw [e2, hr, show (n : ℝ) - 1 - ((n : ℝ) - 2) = 1 by ring, r.rnd_one]

/-- the corner of the grid with the given choices (false: `smin`, true: `smax`), and its node indices -/
def cornerPoint (G : List (Axis ℝ)) (cs : List Bool) : List ℝ := List.zipWith (fun g c => if c then g.hi else g.lo) G cs
def cornerIndex (G : List (Axis ℝ)) (cs : List Bool) : List Nat := List.zipWith (fun g c => if c then g.n - 1 else 0) G cs

/-- **C60 (multilinear, corners, partial)**: with rounding, the corners of the grid (every combination of first and last
nodes; in one dimension both end points) get exactly the values given for them, in one to four dimensions.  Missing: the
other nodes, for which it is false (`C60_multilinear_negation`). -/
theorem C60_multilinear_corners_partial (cast : Fl r → Int) (hcast : CTruncFl cast) (reorder : Nat → List Nat → List Nat)
    (junk : Nat → Nat → Fl r) (G : List (Axis ℝ)) (hG : GridOk G) (hne : ∀ g ∈ G, g.lo ≠ g.hi) (hbits : ∀ g ∈ G, g.n ≤ 2 ^ r.p)
    (values s : Arr2 (Fl r)) (hV : (G.map Axis.n).prod ≤ values.cols) (hs : s.rows = G.length) (hn : s.cols < 2 ^ 31)
    (hre : ∀ i, (reorder i (List.range s.cols)).Perm (List.range s.cols)) :
    ∃ o, (flMli G values).interpolate cast reorder junk s = .ok o ∧ o.rows = values.rows ∧ o.cols = s.cols ∧
      ∀ i < values.rows, (∀ k < (G.map Axis.n).prod, IsNum (values.cell i k)) →
        ∀ j < s.cols, ∀ cs : List Bool, cs.length = G.length →
          (∀ k (h : k < (cornerPoint G cs).length), s.cell k j = val (cornerPoint G cs)[k]) →
          o.cell i j = values.cell i (ravel (G.map Axis.n) (cornerIndex G cs)) := by
  obtain ⟨o, e, h1, h2, h3⟩ := flMli_ok cast reorder junk G hG values s hV hs hn hre
  refine ⟨o, e, h1, h2, ?_⟩
  intro i hi hnum j hj cs hcs hat
  have hlen : (cornerPoint G cs).length = G.length := by simp [cornerPoint, hcs]
  rw [h3 i hi j hj _ hlen hat]
  set ns := G.map Axis.n with hns
  let W : List Nat → ℝ := fun is => if ravel ns is < ns.prod then
      (match values.cell i (ravel ns is) with
        | .val v => v
        | .bad => 0) else 0
  have hW : ∀ is, Index G is → values.cell i (ravel ns is) = val (W is) := by
    intro is his
    obtain ⟨v, _, hv⟩ := hnum _ (ravel_lt _ _ his)
    simp only [W, hv]
    rw [if_pos (ravel_lt _ _ his)]
  have hWr : ∀ is, Rep r.p (W is) := by
    intro is
    simp only [W]
    split
    · rename_i hlt
      obtain ⟨v, hv, ev⟩ := hnum _ hlt
      rw [ev]
      exact hv
    · exact rep_zero
  have hidx : Index G (cornerIndex G cs) := by
    have h22 := hG.two
    unfold Index cornerIndex
    clear hW hWr hnum hat h3 hV hs e hlen W hns hG ns
    induction G generalizing cs with
    | nil => simp
    | cons g G ih =>
      match cs, hcs with
      | c :: cs, hcs =>
        simp only [List.zipWith_cons_cons, List.map_cons]
        refine List.Forall₂.cons ?_ (ih (fun g' hg' => hne g' (by simp [hg'])) (fun g' hg' => hbits g' (by simp [hg'])) cs
          (by simpa using hcs) (fun g' hg' => h22 g' (by simp [hg'])))
        have h2g : 2 ≤ g.n := h22 g (by simp)
        cases c
        · exact (by omega : 0 < g.n)
        · exact (by omega : g.n - 1 < g.n)
  rw [mlin_congr _ _ (cells_lt_fl cast G hG.two _ hlen) (fun is => values.cell i (ravel ns is)) (fun is => val (W is)) hW,
    hW _ hidx]
  apply Fl.mlin_node _ _ _ _ hWr
  have hlt : ∀ g ∈ G, g.n < 2 ^ 31 := fun g hg => n_lt hG hg
  have h22 := hG.two
  unfold cornerIndex cornerPoint
  clear hW hWr hnum hat h3 hV hs e hlen hidx W hns hG ns
  induction G generalizing cs with
  | nil => simp
  | cons g G ih =>
    match cs, hcs with
    | c :: cs, hcs =>
      simp only [List.zipWith_cons_cons]
      refine List.Forall₂.cons ?_ (ih (fun g' hg' => hne g' (by simp [hg'])) (fun g' hg' => hbits g' (by simp [hg'])) cs
        (by simpa using hcs) (fun g' hg' => hlt g' (by simp [hg'])) (fun g' hg' => h22 g' (by simp [hg'])))
      have hg2 := h22 g (by simp)
      cases c
      · left
        simp only [Bool.false_eq_true, if_false]
        rw [coord_lo cast hcast (hne g (by simp)) hg2 (hbits g (by simp))]
        exact ⟨rfl, rfl⟩
      · right
        simp only [if_true]
        rw [coord_hi cast hcast (hne g (by simp)) hg2 (hlt g (by simp)) (hbits g (by simp))]
        exact ⟨(by omega : g.n - 2 + 1 = g.n - 1), rfl⟩

/-- the node 1 of fifty nodes between 0 and 49 has a computed normalised coordinate below 1, in double precision -/
theorem flNorm_node (hp : r.p = 53) : flNorm r 0 49 50 1 < 1 := by
  have h49 : r.rnd (49 : ℝ) = 49 := by
    have := rep_int r.hp1 (m := 49) (by rw [hp]; norm_num)
    exact r.rnd_rep (by exact_mod_cast this)
  have h1 : r.rnd (1 : ℝ) = 1 := r.rnd_one
  unfold flNorm weight
  rw [sub_zero, sub_zero, h49, h1]
  set f := r.rnd ((1 : ℝ) / 49) with hf
  -- the quotient
  have hc : Rep r.p ((5882252574524729 : ℤ) * (2 : ℝ) ^ (-58 : ℤ)) := ⟨5882252574524729, -58, by rw [hp]; norm_num, rfl⟩
  have hnear := r.near (1 / 49) _ hc
  rw [← hf] at hnear
  have hd : |((5882252574524729 : ℤ) * (2 : ℝ) ^ (-58 : ℤ)) - 1 / 49| ≤ 24 / 49 * (2 : ℝ) ^ (-58 : ℤ) := by
    rw [abs_le]; constructor <;> norm_num
  have hb := abs_le.1 (hnear.trans hd)
  have hgrid : ∃ m : ℤ, f = m * (2 : ℝ) ^ (-58 : ℤ) := by
    refine (r.rep (1 / 49)).grid ?_
    have h6 : Rep r.p ((2 : ℝ) ^ (-6 : ℤ)) := ⟨1, -6, by rw [hp]; norm_num, by norm_num⟩
    have := r.le_rnd h6 (x := 1 / 49) (by norm_num)
    rw [hp]
    refine le_trans ?_ (le_trans this (le_abs_self _))
    norm_num
  obtain ⟨m, hm⟩ := hgrid
  have hmle : m ≤ 5882252574524729 := by
    by_contra hcon
    have h' : (5882252574524730 : ℤ) ≤ m := by omega
    have h'' : (5882252574524730 : ℝ) ≤ (m : ℝ) := by exact_mod_cast h'
    have := mul_le_mul_of_nonneg_right h'' (by positivity : (0 : ℝ) ≤ (2 : ℝ) ^ (-58 : ℤ))
    rw [← hm] at this
    have h2 := hb.2
    norm_num at this h2
    linarith
  -- the product lies below the midpoint of 1 and the number before it
  have hfle : f ≤ 5882252574524729 * (2 : ℝ) ^ (-58 : ℤ) := by
    rw [hm]
    exact mul_le_mul_of_nonneg_right (by exact_mod_cast hmle) (by positivity)
  set y : ℝ := 5882252574524729 * (2 : ℝ) ^ (-58 : ℤ) * 49 with hy
  have hmono : r.rnd (f * (((50 : ℕ) : ℝ) - 1)) ≤ r.rnd y := by
    refine r.mono ?_
    rw [hy]
    push_cast
    linarith
  have hP : Rep r.p ((9007199254740991 : ℤ) * (2 : ℝ) ^ (-53 : ℤ)) := ⟨9007199254740991, -53, by rw [hp]; norm_num, rfl⟩
  have hn2 := r.near y _ hP
  have hd2 : |((9007199254740991 : ℤ) * (2 : ℝ) ^ (-53 : ℤ)) - y| ≤ 9 * (2 : ℝ) ^ (-58 : ℤ) := by
    rw [hy, abs_le]; constructor <;> norm_num
  have hb2 := (abs_le.1 (hn2.trans hd2)).2
  refine lt_of_le_of_lt hmono ?_
  have : y + 9 * (2 : ℝ) ^ (-58 : ℤ) < 1 := by rw [hy]; norm_num
  linarith

/-- **C60 (multilinear, negation)**: in double precision, with any way of breaking ties, an interior node does not in general
get its value.  Fifty nodes `0, 1, …, 49` with the value 1 at node 0 and 0 at the others: at the node 1 the result is a
positive number. -/
theorem C60_multilinear_negation (hp : r.p = 53) (cast : Fl r → Int) (hcast : CTruncFl cast) (junk : Nat → Nat → Fl r) :
    node (0 : ℝ) 49 50 1 = 1 ∧
    ∃ o v, (flMli [⟨0, 49, 50⟩] ⟨1, 50, fun _ k => val (if k = 0 then 1 else 0)⟩).interpolate cast (fun _ l => l) junk
      ⟨1, 1, fun _ _ => val 1⟩ = .ok o ∧ o.cell 0 0 = val v ∧ 0 < v := by
  refine ⟨by norm_num [node], ?_⟩
  have hG : GridOk [(⟨0, 49, 50⟩ : Axis ℝ)] := ⟨by simp, by simp, by simp, by simp⟩
  have hb : 50 ≤ 2 ^ r.p := by rw [hp]; norm_num
  obtain ⟨o, e, _, _, h⟩ := flMli_ok cast (fun _ l => l) junk [⟨0, 49, 50⟩] hG
    ⟨1, 50, fun _ k => val (if k = 0 then 1 else 0)⟩ ⟨1, 1, fun _ _ => val 1⟩ (by simp) rfl (by simp)
    (fun _ => List.Perm.refl _)
  have hcell := h 0 (by simp) 0 (by simp) [1] rfl (by
    intro k hk
    have : k = 0 := by simpa using hk
    subst this
    rfl)
  obtain ⟨c1, c2, _, _⟩ := coord_inside cast hcast (by omega) (a := 0) (b := 49) (x := 1) (n := 50) (by norm_num)
    (by norm_num) (by norm_num) (by norm_num) (by norm_num) hb
  have hlt := flNorm_node (r := r) hp
  set t := flNorm r 0 49 50 1 with ht
  have hfl : ⌊t⌋₊ = 0 := Nat.floor_eq_zero.2 hlt
  have hcl : cellOf 50 t = (0, t) := by simp [cellOf, hfl]
  rw [hcl] at c1
  refine ⟨o, r.rnd (1 - t), e, ?_, r.rnd_pos (by linarith)⟩
  rw [hcell]
  simp only [List.zipWith_cons_cons, List.zipWith_nil_left, c1, mlin, one_eq, val_sub, val_mul, val_add]
  have hr0 : r.rnd (0 : ℝ) = 0 := r.rnd_rep rep_zero
  have e0 : ravel [50] [0] = 0 := rfl
  have e1 : ravel [50] [0 + 1] = 1 := rfl
  simp only [List.map_cons, List.map_nil, e0, e1, if_true, one_ne_zero, if_false, mul_one, mul_zero, hr0, add_zero,
    r.rnd_rep (r.rep _)]

/-! ### examples -/

/-- truncation of numbers -/
noncomputable def truncFl : Fl r → Int
  | .val x => ⌊x⌋
  | .bad => -2 ^ 31

theorem truncFl_ok : CTruncFl (r := r) truncFl := fun x _ _ => ⟨Int.floor_le x, Int.lt_floor_add_one x⟩

def gridFl : List (Axis ℝ) := [⟨0, 1, 2⟩, ⟨-3, 3, 3⟩]
theorem gridFl_ok : GridOk gridFl := ⟨by simp [gridFl], by simp [gridFl], by simp [gridFl], by simp [gridFl]⟩

example := C60_multilinear_negation (r := Rounding.correct 53 (by norm_num)) rfl truncFl truncFl_ok (fun _ _ => bad)

/-- the corner `(1, -3)` of a grid of two by three nodes gets the value of the fourth node -/
example : ∃ o : Arr2 (Fl (Rounding.correct 53 (by norm_num))), (flMli gridFl ⟨1, 6, fun _ k => val (k : ℝ)⟩).interpolate truncFl
    backwards (fun _ _ => bad) ⟨2, 1, fun k _ => if k = 0 then val 1 else val (-3)⟩ = .ok o ∧
    o.cell 0 0 = val 3 := by
  obtain ⟨o, e, _, _, h⟩ := C60_multilinear_corners_partial (r := Rounding.correct 53 (by norm_num)) truncFl truncFl_ok
    backwards (fun _ _ => bad) gridFl gridFl_ok (by
      intro g hg
      simp only [gridFl, List.mem_cons, List.not_mem_nil, or_false] at hg
      rcases hg with rfl | rfl <;> norm_num) (by
      intro g hg
      simp only [gridFl, List.mem_cons, List.not_mem_nil, or_false] at hg
      rcases hg with rfl | rfl <;> (show _ ≤ 2 ^ 53; norm_num))
    ⟨1, 6, fun _ k => val (k : ℝ)⟩ ⟨2, 1, fun k _ => if k = 0 then val 1 else val (-3)⟩ (by simp [gridFl]) rfl (by simp)
    (backwards_ok 1)
  refine ⟨o, e, ?_⟩
  rw [h 0 (by simp) (fun k hk => ⟨k, ?_, rfl⟩) 0 (by simp) [true, false] rfl ?_]
  · simp [ravel, gridFl, cornerIndex]
  · intro k hk
    have : k = 0 ∨ k = 1 := by simp [cornerPoint, gridFl] at hk; omega
    rcases this with rfl | rfl <;> simp [cornerPoint, gridFl]
  · have : k < 6 := by simpa [gridFl] using hk
    have h := rep_int (Rounding.correct 53 (by norm_num)).hp1 (m := (k : ℤ)) (by
      rw [abs_of_nonneg (by omega)]
      show (k : ℤ) ≤ 2 ^ 53
      omega)
    exact_mod_cast h

example := C61_multilinear (r := Rounding.correct 53 (by norm_num)) (by show 5 ≤ 53; norm_num) truncFl truncFl_ok
  backwards (fun _ _ => bad) gridFl gridFl_ok (by
    intro g hg
    simp only [gridFl, List.mem_cons, List.not_mem_nil, or_false] at hg
    rcases hg with rfl | rfl <;> norm_num) (by
    intro g hg
    simp only [gridFl, List.mem_cons, List.not_mem_nil, or_false] at hg
    rcases hg with rfl | rfl <;> (show _ ≤ 2 ^ 53; norm_num))
  ⟨1, 6, fun _ k => val (k : ℝ)⟩ ⟨2, 1, fun k _ => if k = 0 then val (1 / 2) else val (-1)⟩ (by simp [gridFl]) rfl (by simp)
  (backwards_ok 1)

end Verif.Props
