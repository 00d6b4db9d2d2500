import Verif.Props.OverflowVii
import Verif.Props.FlMulti

/-!
# C112: no overflow in the multilinear interpolation
-/

namespace Verif.Props
open Verif Verif.Spec Verif.Multilinear Verif.Grid Verif.Ov Verif.Err Verif.Fl

/-! ### the kernels -/

section kernel
variable {α : Type} [Trig α] {m : Approx α} {L : Limit m}

private theorem mlin_same {cs : List (Nat × α)} {ns : List Nat} (h : List.Forall₂ (fun c n => c.1 + 1 < n ∧ m.mag c.2 ≤ 1) cs ns) {B : ℝ} (hB : 0 ≤ B)
    (hL3 : 3 ≤ L.bound) (V : List Nat → α) (hV : ∀ is, List.Forall₂ (fun i n => i < n) is ns → m.mag (V is) ≤ B) (hL : 6 ^ cs.length * B ≤ L.bound) :
    Same (mlin (cs.map (fun c => (c.1, (mk c.2 : Ov L)))) (fun is => mk (V is))) (mlin cs V) (6 ^ cs.length * B) := by
  induction h generalizing V with
  | nil =>
    simp only [List.map_nil, mlin, List.length_nil, pow_zero, one_mul]
    exact Same.input (hV [] List.Forall₂.nil)
  | @cons c n cs ns hc _ ih =>
    obtain ⟨q, l⟩ := c
    obtain ⟨hq, hl⟩ := hc
    simp only at hq hl
    have hX : 0 ≤ 6 ^ cs.length * B := by positivity
    have e : (6 : ℝ) ^ (cs.length + 1) * B = 6 * (6 ^ cs.length * B) := by ring
    rw [List.length_cons, e] at hL ⊢
    have hX' : 6 ^ cs.length * B ≤ L.bound := by linarith
    have i1 := ih (fun is => V (q :: is)) (fun is his => hV _ (List.Forall₂.cons (by omega) his)) hX'
    have i2 := ih (fun is => V ((q + 1) :: is)) (fun is his => hV _ (List.Forall₂.cons hq his)) hX'
    have hl' : Same (mk l : Ov L) l 1 := Same.input hl
    have h1 : Same (1 : Ov L) 1 1.25 := Same.ofNat 1 (by norm_num) (by linarith)
    have h2 : Same ((1 : Ov L) - mk l) (1 - l) 2.8125 := h1.sub hl' (by norm_num) (by linarith)
    have h3 := h2.mul i1 (C := 3.52 * (6 ^ cs.length * B)) (by linarith) (by linarith)
    have h4 := hl'.mul i2 (C := 1.25 * (6 ^ cs.length * B)) (by linarith) (by linarith)
    simp only [List.map_cons, mlin]
    exact h3.add h4 (by linarith) hL


/-! ### the nodes -/

private theorem linspace_same {a b : α} {A : ℝ} (ha : m.mag a ≤ A) (hb : m.mag b ≤ A) (hL3 : (10 : ℝ) ^ 37 ≤ L.bound) (hL : 10 * A ≤ L.bound) {n : Nat}
    (hn : n < 2 ^ 31) : linspace (mk a : Ov L) (mk b) n = (linspace a b n).map mk := by
  have hA : 0 ≤ A := (m.mag_nonneg a).trans ha
  have sa : Same (mk a : Ov L) a A := Same.input ha
  have sb : Same (mk b : Ov L) b A := Same.input hb
  have sd := sb.sub sa (C := 2.5 * A) (by linarith) (by linarith)
  have hN : ∀ k : Nat, k ≤ n → Same (Arith.ofInt (k : Int) : Ov L) (Arith.ofInt (k : Int)) (1.25 * k) := by
    intro k hk
    have : (k : ℝ) ≤ 2 ^ 31 := by exact_mod_cast (by omega : k ≤ 2 ^ 31)
    refine Same.ofInt _ (by simp) (le_trans ?_ hL3)
    norm_num
    linarith
  unfold linspace
  split
  · rw [List.map_map]
    refine List.map_congr_left ?_
    intro i hi
    have hi := List.mem_range.1 hi
    obtain rfl : i = 0 := by omega
    have k1 := (hN 0 (by omega)).mul sd (C := A) (by push_cast; linarith) (by linarith)
    exact (k1.add sa (C := 2.5 * A) (by linarith) (by linarith)).eq'
  · rename_i h1
    rw [List.map_map]
    have hn1 : (0 : ℝ) < (n : ℝ) - 1 := by
      have : (1 : ℝ) < n := by exact_mod_cast (by omega : 1 < n)
      linarith
    have en : ((n : Int) - 1) = ((n - 1 : Nat) : Int) := by omega
    have er : ((n - 1 : Nat) : ℝ) = (n : ℝ) - 1 := by push_cast [show 1 ≤ n by omega]; ring
    have sn := hN (n - 1) (by omega)
    have lo := (m.mag_ofInt ((n : Int) - 1)).2
    rw [← en] at sn
    rw [er] at sn
    push_cast at lo
    rw [abs_of_pos hn1] at lo
    have ss := sd.div sn lo (by linarith) (C := 4.2 * A / ((n : ℝ) - 1)) (by field_simp; linarith) (by
      rw [div_le_iff₀ hn1]
      have : (1 : ℝ) ≤ (n : ℝ) - 1 := by rw [← er]; exact_mod_cast (by omega : 1 ≤ n - 1)
      have : L.bound * 1 ≤ L.bound * ((n : ℝ) - 1) := mul_le_mul_of_nonneg_left this (by linarith)
      linarith)
    have s0 : Same (0 : Ov L) 0 1 := Same.ofNat 0 (by norm_num) (le_trans (by norm_num) hL3)
    refine List.map_congr_left ?_
    intro i hi
    have hi := List.mem_range.1 hi
    simp only [Function.comp]
    rw [ss.eq_ s0]
    have si := hN i (by omega)
    have hi0 : (0 : ℝ) ≤ i := by positivity
    have hile : (i : ℝ) ≤ (n : ℝ) - 1 := by rw [← er]; exact_mod_cast (by omega : i ≤ n - 1)
    split
    · rfl
    · split
      · have q := si.div sn lo (by linarith) (C := 2.1) (by linarith) (le_trans (by norm_num) hL3)
        have k := q.mul sd (C := 6.6 * A) (by linarith) (by linarith)
        exact (k.add sa (C := 10 * A) (by linarith) hL).eq'
      · have k := si.mul ss (C := 6.6 * A) (by
          rw [← mul_div_assoc, ← mul_div_assoc, div_le_iff₀ hn1]
          have k1 := mul_le_mul_of_nonneg_left hile hA
          have k2 : 1.25 * (1.25 * (i : ℝ) * (4.2 * A)) = 6.5625 * (A * i) := by ring
          have k3 : 6.6 * A * ((n : ℝ) - 1) = 6.6 * (A * ((n : ℝ) - 1)) := by ring
          rw [k2, k3]
          have k4 : 0 ≤ A * (i : ℝ) := by positivity
          linarith) (by linarith)
        exact (k.add sa (C := 10 * A) (by linarith) hL).eq'

private theorem mesh_map (f : α → Ov L) (l : List (List α)) : mesh (l.map (List.map f)) = (mesh l).map (List.map f) := by
  induction l with
  | nil => rfl
  | cons a l ih =>
    simp only [List.map_cons, mesh, ih, List.flatMap_map, List.map_flatMap, List.map_map]
    rfl

private theorem axes_same {A : ℝ} (hL3 : (10 : ℝ) ^ 37 ≤ L.bound) (hL : 10 * A ≤ L.bound) (smin smax : List α) (orders : List Int)
    (ha : ∀ a ∈ smin, m.mag a ≤ A) (hb : ∀ b ∈ smax, m.mag b ≤ A) (hn : ∀ n ∈ orders, n < 2 ^ 31) :
    axes (smin.map (mk : α → Ov L)) (smax.map mk) orders = (axes smin smax orders).map (List.map (List.map mk)) := by
  induction orders generalizing smin smax with
  | nil => simp [axes]; rfl
  | cons n orders ih =>
    match smin, smax with
    | [], _ => simp [axes]; rfl
    | _ :: _, [] => simp [axes]; rfl
    | a :: smin, b :: smax =>
      simp only [List.map_cons, axes]
      split
      · rfl
      · rw [ih smin smax (fun x hx => ha x (by simp [hx])) (fun x hx => hb x (by simp [hx])) (fun x hx => hn x (by simp [hx])),
          linspace_same (ha a (by simp)) (hb b (by simp)) hL3 hL (by have := hn n (by simp); omega)]
        cases axes smin smax orders <;> rfl

private theorem mlinspace_same {A : ℝ} (hL3 : (10 : ℝ) ^ 37 ≤ L.bound) (hL : 10 * A ≤ L.bound) (smin smax : List α) (orders : List Int)
    (ha : ∀ a ∈ smin, m.mag a ≤ A) (hb : ∀ b ∈ smax, m.mag b ≤ A) (hn : ∀ n ∈ orders, n < 2 ^ 31) :
    mlinspace (smin.map (mk : α → Ov L)) (smax.map mk) orders = (mlinspace smin smax orders).map (List.map (List.map mk)) := by
  unfold mlinspace
  split
  · rfl
  · split
    · rfl
    · rw [axes_same hL3 hL smin smax orders ha hb hn]
      cases axes smin smax orders with
      | error e => rfl
      | ok l => exact congrArg Except.ok (mesh_map _ l)

end kernel

/-! ### C112 -/

variable {r : Rounding} {ε : ℝ}

/-- the interpolator in the arithmetic with overflow -/
noncomputable def ovMli {h : LibRel r ε} {hε : ε ≤ 1 / 100} (maxF : ℝ) (m : MLI (Fl r)) : MLI (Ov (flLimit h hε maxF)) :=
  ⟨m.smin.map mk, m.smax.map mk, m.orders, m.values.map (ovArr _)⟩

private theorem mag_of {h : LibRel r ε} {hε : ε ≤ 1 / 100} {x : Fl r} {B : ℝ} (hB : 0 ≤ B) (hx : ∀ a, x = .val a → |a| ≤ B) :
    (Fl.approx h hε).mag x ≤ B := by
  cases x with
  | val a => rw [(Fl.approx h hε).mag_some rfl]; exact hx a rfl
  | bad => rw [(Fl.approx h hε).mag_none rfl]; exact hB

private theorem coord_same {h : LibRel r ε} {hε : ε ≤ 1 / 100} {maxF : ℝ} (hmax : (10 : ℝ) ^ 37 ≤ maxF) (hp : 3 ≤ r.p) (cast : Fl r → Int)
    (hcast : CTruncFl cast) {a b x : ℝ} {n : Nat} (hab : a < b) (h1 : a ≤ x) (h2 : x ≤ b) (hn : 2 ≤ n) (hn31 : n < 2 ^ 31) (hb : n ≤ 2 ^ r.p)
    (ha : |a| ≤ maxF / 2000) (hb' : |b| ≤ maxF / 2000) :
    coord (fun y : Ov (flLimit h hε maxF) => cast y.get) (mk (val a)) (mk (val b)) n (mk (val x)) =
      ((coord cast (val a) (val b) n (val x)).1, mk (coord cast (val a) (val b) n (val x)).2) ∧
    (Fl.approx h hε).mag (coord cast (val a) (val b) n (val x)).2 ≤ 1 := by
  have hM : 0 ≤ maxF := le_trans (by positivity) hmax
  have hbd : (flLimit h hε maxF).bound = maxF := rfl
  have hxa : |x| ≤ maxF / 2000 := by
    rw [abs_le] at *
    exact ⟨by linarith [ha.1], by linarith [hb'.2]⟩
  have sx : Same (mk (val x) : Ov (flLimit h hε maxF)) (val x) (maxF / 2000) := Same.input (le_trans (le_of_eq ((Fl.approx h hε).mag_some rfl)) hxa)
  have sa : Same (mk (val a) : Ov (flLimit h hε maxF)) (val a) (maxF / 2000) := Same.input (le_trans (le_of_eq ((Fl.approx h hε).mag_some rfl)) ha)
  have sb : Same (mk (val b) : Ov (flLimit h hε maxF)) (val b) (maxF / 2000) := Same.input (le_trans (le_of_eq ((Fl.approx h hε).mag_some rfl)) hb')
  have d1 := sx.sub sa (C := maxF / 100) (by linarith) (by rw [hbd]; linarith)
  have d2 := sb.sub sa (C := maxF / 100) (by linarith) (by rw [hbd]; linarith)
  have q := d1.div' d2 (C := 1) (by
    rw [weight_val x hab.ne, (Fl.approx h hε).mag_some rfl]
    obtain ⟨w0, w1⟩ := weight_range (r := r) hab h1 h2
    rwa [abs_of_nonneg w0]) (by rw [hbd]; exact le_trans (by norm_num) hmax)
  have hI : ∀ k : Int, |k| ≤ 2 ^ 31 → Same (Arith.ofInt k : Ov (flLimit h hε maxF)) (Arith.ofInt k) (2 ^ 32) := by
    intro k hk
    have : |(k : ℝ)| ≤ 2 ^ 31 := by exact_mod_cast hk
    exact Same.ofInt k (by norm_num at this ⊢; linarith) (by rw [hbd]; exact le_trans (by norm_num) hmax)
  have t := q.mul (hI ((n : Int) - 1) (by rw [abs_le]; omega)) (C := 2 ^ 33) (by norm_num) (by rw [hbd]; exact le_trans (by norm_num) hmax)
  constructor
  · unfold coord
    simp only
    rw [t.eq]
    have := t.sub (hI (((max (min (cast ((val x - val a) / (val b - val a) * Arith.ofInt ((n : Int) - 1))) ((n : Int) - 2)) 0).toNat : Nat) : Int)
      (by rw [abs_le]; omega)) (C := 2 ^ 34) (by norm_num) (by rw [hbd]; exact le_trans (by norm_num) hmax)
    exact Prod.ext rfl this.eq'
  · obtain ⟨c1, c2, c3, _⟩ := coord_inside cast hcast hp hab h1 h2 hn hn31 hb
    rw [c1, (Fl.approx h hε).mag_some rfl]
    obtain ⟨r0, r1⟩ := cellOf_range hn c2 c3
    rwa [abs_of_nonneg r0]

private theorem sized_of_grid_ov {h : LibRel r ε} {hε : ε ≤ 1 / 100} {maxF : ℝ} {G : List (Axis ℝ)} (hG : GridOk G) :
    Sized (Arr1.ofList (0 : Ov (flLimit h hε maxF)) ((G.map (fun g => (val g.lo : Fl r))).map mk)) (Arr1.ofList 0 ((G.map (fun g => (val g.hi : Fl r))).map mk))
      (Arr1.ofList 0 (G.map (fun g => (g.n : Int)))) (G.map Axis.n) where
  min := by simp [Arr1.ofList]
  max := by simp [Arr1.ofList]
  len := by simp [Arr1.ofList]
  orders := by
    intro k h
    simp only [List.length_map] at h
    simp [Arr1.ofList, List.getD, List.getElem?_eq_getElem h]
  two := by
    intro n hn
    obtain ⟨g, hg, rfl⟩ := List.mem_map.1 hn
    exact hG.two g hg
  total := hG.total

private theorem ovMli_ok {h : LibRel r ε} {hε : ε ≤ 1 / 100} {maxF : ℝ} (cast : Ov (flLimit h hε maxF) → Int) (reorder : Nat → List Nat → List Nat)
    (junk : Nat → Nat → Ov (flLimit h hε maxF)) (G : List (Axis ℝ)) (hG : GridOk G) (values s : Arr2 (Fl r)) (hV : (G.map Axis.n).prod ≤ values.cols)
    (hs : s.rows = G.length) (hn : s.cols < 2 ^ 31) (hre : ∀ i, (reorder i (List.range s.cols)).Perm (List.range s.cols)) :
    ∃ o, (ovMli maxF (flMli G values)).interpolate cast reorder junk (ovArr _ s) = .ok o ∧ o.rows = values.rows ∧ o.cols = s.cols ∧
      ∀ i < values.rows, ∀ j < s.cols, ∀ p : List ℝ, p.length = G.length →
        (∀ k (h : k < p.length), s.cell k j = val p[k]) →
        o.cell i j = mlin (List.zipWith (fun g x => coord cast (mk (val g.lo)) (mk (val g.hi)) g.n (mk (val x))) G p)
          (fun is => mk (values.cell i (ravel (G.map Axis.n) is))) := by
  obtain ⟨o, e, h1, h2, h3⟩ := multi_ok cast reorder junk _ _ _ _ (ovArr (flLimit h hε maxF) values) (ovArr (flLimit h hε maxF) s) (sized_of_grid_ov hG) (by simpa using hG.one)
    (by simpa using hG.four) (hs.trans (by simp)) hn hV hre
  refine ⟨o, e, h1, h2, ?_⟩
  intro i hi j hj p hp hat
  rw [h3 i hi j hj]
  have : coords cast (Arr1.ofList (0 : Ov (flLimit h hε maxF)) ((G.map (fun g => (val g.lo : Fl r))).map mk))
      (Arr1.ofList 0 ((G.map (fun g => (val g.hi : Fl r))).map mk)) (G.map Axis.n) (fun k => (ovArr _ s).cell k j) =
      List.zipWith (fun g x => coord cast (mk (val g.lo)) (mk (val g.hi)) g.n (mk (val x))) G p := by
    apply List.ext_getElem
    · simp [coords, hp]
    · intro k a1 a2
      have hk : k < G.length := by simpa [coords] using a1
      simp [coords, Arr1.ofList, List.getD, List.getElem?_eq_getElem hk, ovArr, hat k (by omega)]
  rw [this]
  rfl

/-- **C112 (no overflow)**: in a grid of one to four dimensions whose ends are numbers of at most a two-thousandth of the largest number of the
format, with values that are NaN or numbers of at most a two-thousandth of it, the result at every point inside the grid is the one of arithmetic
without overflow. -/
theorem C112_interpolate (h : LibRel r ε) (hε : ε ≤ 1 / 100) (hp : 3 ≤ r.p) (maxF : ℝ) (hmax : (10 : ℝ) ^ 37 ≤ maxF) (cast : Fl r → Int)
    (hcast : CTruncFl cast) (reorder : Nat → List Nat → List Nat) (junk : Nat → Nat → Fl r) (G : List (Axis ℝ)) (hG : GridOk G)
    (hlt : ∀ g ∈ G, g.lo < g.hi) (hbits : ∀ g ∈ G, g.n ≤ 2 ^ r.p) (hends : ∀ g ∈ G, |g.lo| ≤ maxF / 2000 ∧ |g.hi| ≤ maxF / 2000)
    (values s : Arr2 (Fl r)) (hvals : ∀ i < values.rows, ∀ k < (G.map Axis.n).prod, ∀ x, values.cell i k = val x → |x| ≤ maxF / 2000)
    (hV : (G.map Axis.n).prod ≤ values.cols) (hs : s.rows = G.length) (hn : s.cols < 2 ^ 31)
    (hre : ∀ i, (reorder i (List.range s.cols)).Perm (List.range s.cols)) :
    ∃ o o', (flMli G values).interpolate cast reorder junk s = .ok o ∧
      (ovMli maxF (flMli G values)).interpolate (fun y : Ov (flLimit h hε maxF) => cast y.get) reorder (fun i j => mk (junk i j)) (ovArr _ s) = .ok o' ∧
      o.rows = values.rows ∧ o.cols = s.cols ∧ o'.rows = values.rows ∧ o'.cols = s.cols ∧
      ∀ i < values.rows, ∀ j < s.cols, ∀ p : List ℝ, Spec.Inside G p → (∀ k (h : k < p.length), s.cell k j = val p[k]) →
        o'.cell i j = mk (o.cell i j) := by
  have hM : 0 ≤ maxF := le_trans (by positivity) hmax
  obtain ⟨o, e, h1, h2, h3⟩ := flMli_ok cast reorder junk G hG values s hV hs hn hre
  obtain ⟨o', e', h1', h2', h3'⟩ := ovMli_ok (h := h) (hε := hε) (maxF := maxF) (fun y => cast y.get) reorder (fun i j => mk (junk i j)) G hG values s
    hV hs hn hre
  refine ⟨o, o', e, e', h1, h2, h1', h2', ?_⟩
  intro i hi j hj p hin hat
  have hlen : p.length = G.length := hin.length_eq
  rw [h3 i hi j hj p hlen hat, h3' i hi j hj p hlen hat]
  have hn31 : ∀ g ∈ G, g.n < 2 ^ 31 := fun g hg => n_lt hG hg
  have htwo := hG.two
  have key : List.zipWith (fun (g : Axis ℝ) x => coord (fun y : Ov (flLimit h hε maxF) => cast y.get) (mk (val g.lo)) (mk (val g.hi)) g.n (mk (val x))) G p =
        (List.zipWith (fun (g : Axis ℝ) x => coord cast (val g.lo : Fl r) (val g.hi) g.n (val x)) G p).map (fun c => (c.1, mk c.2)) ∧
      List.Forall₂ (fun (c : Nat × Fl r) n => c.1 + 1 < n ∧ (Fl.approx h hε).mag c.2 ≤ 1)
        (List.zipWith (fun (g : Axis ℝ) x => coord cast (val g.lo : Fl r) (val g.hi) g.n (val x)) G p) (G.map Axis.n) := by
    clear h3 h3' hvals hV hs hat e e' hG hlen
    induction hin with
    | nil => simp
    | @cons x g p G hx _ ih =>
      obtain ⟨i1, i2⟩ := ih (fun g' hg' => hlt g' (by simp [hg'])) (fun g' hg' => hbits g' (by simp [hg']))
        (fun g' hg' => hends g' (by simp [hg'])) (fun g' hg' => hn31 g' (by simp [hg'])) (fun g' hg' => htwo g' (by simp [hg']))
      obtain ⟨c1, c2⟩ := coord_same (h := h) (hε := hε) hmax hp cast hcast (hlt g (by simp)) hx.1 hx.2 (htwo g (by simp))
        (hn31 g (by simp)) (hbits g (by simp)) (hends g (by simp)).1 (hends g (by simp)).2
      simp only [List.zipWith_cons_cons, List.map_cons]
      exact ⟨by rw [c1, i1], List.Forall₂.cons ⟨coord_lt _ _ _ _ _ (htwo g (by simp)), c2⟩ i2⟩
  obtain ⟨k1, k2⟩ := key
  rw [k1]
  have hl : (List.zipWith (fun (g : Axis ℝ) x => coord cast (val g.lo : Fl r) (val g.hi) g.n (val x)) G p).length ≤ 4 := by
    have := hG.four
    simp [hlen, this]
  refine (mlin_same (L := flLimit h hε maxF) k2 (B := maxF / 2000) (by positivity) (le_trans (by norm_num) hmax) _ ?_ ?_).eq'
  · intro is his
    exact mag_of (by positivity) (hvals i hi _ (ravel_lt _ _ his))
  · have : (6 : ℝ) ^ (List.zipWith (fun (g : Axis ℝ) x => coord cast (val g.lo : Fl r) (val g.hi) g.n (val x)) G p).length ≤ 6 ^ 4 :=
      pow_le_pow_right₀ (by norm_num) hl
    show _ ≤ maxF
    have := mul_le_mul_of_nonneg_right this (show 0 ≤ maxF / 2000 by positivity)
    linarith

/-- **C112 (nodes)**: the nodes that `grid` returns, or the error it raises, are those of arithmetic without overflow, for ends that are NaN or
numbers of at most a tenth of the largest number, in any order and number. -/
theorem C112_grid (h : LibRel r ε) (hε : ε ≤ 1 / 100) (maxF : ℝ) (hmax : (10 : ℝ) ^ 37 ≤ maxF) (m : MLI (Fl r))
    (hmin : ∀ x, val x ∈ m.smin → |x| ≤ maxF / 10) (hmx : ∀ x, val x ∈ m.smax → |x| ≤ maxF / 10) (hn : ∀ n ∈ m.orders, n < 2 ^ 31) :
    (ovMli (h := h) (hε := hε) maxF m).grid = m.grid.map (List.map (List.map mk)) := by
  have hM : 0 ≤ maxF := le_trans (by positivity) hmax
  refine mlinspace_same (L := flLimit h hε maxF) (A := maxF / 10) hmax (by show 10 * (maxF / 10) ≤ maxF; linarith) _ _ _ ?_ ?_ hn
  · intro a ha
    exact mag_of (by positivity) (fun x hx => hmin x (hx ▸ ha))
  · intro a ha
    exact mag_of (by positivity) (fun x hx => hmx x (hx ▸ ha))

/-- **C112 (the limit is a limit)**: on an axis from minus the largest number to the largest number the length of the axis overflows, and so does the
distance of the last node from the first: infinity over infinity is no number, and no number is the result at the last node, whatever the values,
while arithmetic without overflow gives one.  (At a point less than the largest number away from the first node the code divides a number by
infinity; `Ov` does not tell infinity from NaN, so that nothing is said here about these points.) -/
theorem C112_limit (h : LibRel r ε) (hε : ε ≤ 1 / 100) (hp : 5 ≤ r.p) (maxF : ℝ) (hmax : (10 : ℝ) ^ 37 ≤ maxF) (cast : Fl r → Int)
    (hcast : CTruncFl cast) (junk : Nat → Nat → Fl r) (v0 v1 : ℝ) :
    ∃ o o', (flMli [⟨-maxF, maxF, 2⟩] ⟨1, 2, fun _ k => val (if k = 0 then v0 else v1)⟩).interpolate cast (fun _ l => l) junk ⟨1, 1, fun _ _ => val maxF⟩ = .ok o ∧
      (ovMli maxF (flMli [⟨-maxF, maxF, 2⟩] ⟨1, 2, fun _ k => val (if k = 0 then v0 else v1)⟩)).interpolate
        (fun y : Ov (flLimit h hε maxF) => cast y.get) (fun _ l => l) (fun i j => mk (junk i j)) (ovArr _ ⟨1, 1, fun _ _ => val maxF⟩) = .ok o' ∧
      (∃ v, o.cell 0 0 = val v) ∧ o'.cell 0 0 = mk .bad := by
  have hM : 0 < maxF := lt_of_lt_of_le (by positivity) hmax
  have hG : GridOk ([⟨-maxF, maxF, 2⟩] : List (Axis ℝ)) := ⟨by simp, by simp, by simp, by simp⟩
  obtain ⟨o, e, _, _, h3⟩ := C61_multilinear hp cast hcast (fun _ l => l) junk [⟨-maxF, maxF, 2⟩] hG (by simp [hM])
    (by
      intro g hg
      simp only [List.mem_singleton] at hg
      subst hg
      calc 2 = 2 ^ 1 := rfl
        _ ≤ 2 ^ r.p := Nat.pow_le_pow_right (by norm_num) (by omega))
    ⟨1, 2, fun _ k => val (if k = 0 then v0 else v1)⟩ ⟨1, 1, fun _ _ => val maxF⟩ (by simp) rfl (by simp) (fun _ => List.Perm.refl _)
  obtain ⟨o', e', _, _, h3'⟩ := ovMli_ok (h := h) (hε := hε) (maxF := maxF) (fun y => cast y.get) (fun _ l => l) (fun i j => mk (junk i j))
    [⟨-maxF, maxF, 2⟩] hG ⟨1, 2, fun _ k => val (if k = 0 then v0 else v1)⟩ ⟨1, 1, fun _ _ => val maxF⟩ (by simp) rfl (by simp)
    (fun _ => List.Perm.refl _)
  refine ⟨o, o', e, e', ?_, ?_⟩
  · obtain ⟨v, _, hv, _⟩ := h3 0 (by simp) (fun k => if k = 0 then v0 else v1) (max |v0| |v1|) (fun _ _ => rfl)
      (fun k => by split <;> simp) 0 (by simp) [maxF] (List.Forall₂.cons ⟨by linarith, le_rfl⟩ List.Forall₂.nil) (by simp)
    exact ⟨v, hv⟩
  · rw [h3' 0 (by simp) 0 (by simp) [maxF] rfl (by simp)]
    have cb : (clip .bad : Ov (flLimit h hε maxF)) = mk .bad := if_pos trivial
    have hsub : (mk (.val maxF) - mk (.val (-maxF)) : Ov (flLimit h hε maxF)) = mk .bad := by
      refine if_neg ?_
      show ¬ |r.rnd (maxF - -maxF)| ≤ maxF
      have h1 := (rel_rnd h.u (maxF - -maxF)).le_abs
      rw [not_le]
      refine lt_of_lt_of_le ?_ h1
      rw [show maxF - -maxF = 2 * maxF by ring, abs_of_pos (by linarith)]
      nlinarith
    have divb (y : Ov (flLimit h hε maxF)) : (y / mk .bad : Ov (flLimit h hε maxF)) = mk .bad :=
      (congrArg clip (show Arith.div y.get (Fl.bad : Fl r) = .bad by cases y.get <;> rfl)).trans cb
    have mulb (y : Ov (flLimit h hε maxF)) : (mk .bad * y : Ov (flLimit h hε maxF)) = mk .bad :=
      (congrArg clip (show Arith.mul (Fl.bad : Fl r) y.get = .bad by cases y.get <;> rfl)).trans cb
    have bsub (y : Ov (flLimit h hε maxF)) : (mk .bad - y : Ov (flLimit h hε maxF)) = mk .bad :=
      (congrArg clip (show Arith.sub (Fl.bad : Fl r) y.get = .bad by cases y.get <;> rfl)).trans cb
    have addb (y : Ov (flLimit h hε maxF)) : (y + mk .bad : Ov (flLimit h hε maxF)) = mk .bad :=
      (congrArg clip (show Arith.add y.get (Fl.bad : Fl r) = .bad by cases y.get <;> rfl)).trans cb
    simp only [List.zipWith_cons_cons, List.zipWith_nil_left, mlin, coord]
    rw [hsub, divb, mulb, bsub, mulb, addb]

/-! ### examples -/

/-- double precision: a grid of two by three nodes with a NaN among values up to `10^70` -/
example := C112_interpolate (libRel_correct 53 (by norm_num)) double_u (by show 3 ≤ 53; norm_num) maxFloat64 maxFloat64_ge truncFl truncFl_ok backwards
  (fun _ _ => bad) gridFl gridFl_ok (by
    intro g hg
    simp only [gridFl, List.mem_cons, List.not_mem_nil, or_false] at hg
    rcases hg with rfl | rfl <;> norm_num) (by
    intro g hg
    simp only [gridFl, List.mem_cons, List.not_mem_nil, or_false] at hg
    rcases hg with rfl | rfl <;> (show _ ≤ 2 ^ 53; norm_num)) (by
    have hm : 3 ≤ maxFloat64 / 2000 := by linarith [show (6000 : ℝ) ≤ maxFloat64 from le_trans (by norm_num) maxFloat64_ge]
    intro g hg
    simp only [gridFl, List.mem_cons, List.not_mem_nil, or_false] at hg
    rcases hg with rfl | rfl
    · exact ⟨by rw [abs_zero]; linarith, by rw [abs_one]; linarith⟩
    · exact ⟨by rw [abs_neg, abs_of_nonneg (by norm_num)]; exact hm, by rw [abs_of_nonneg (by norm_num)]; exact hm⟩)
  ⟨1, 6, fun _ k => if k = 2 then bad else val (10 ^ 70)⟩ ⟨2, 1, fun k _ => if k = 0 then val (1 / 2) else val (-1)⟩ (by
    intro i _ k _ x hx
    have := maxFloats.2
    simp only at hx
    split at hx
    · cases hx
    · cases hx
      rw [abs_of_nonneg (by positivity)]
      linarith) (by simp [gridFl]) rfl (by simp) (backwards_ok 1)

/-- the nodes of a grid with a NaN among its ends -/
example : (ovMli maxFloat64 ⟨[val 0, val (-3)], [val 1, bad], [2, 3], none⟩ : MLI (Ov (flLimit (libRel_correct 53 (by norm_num)) double_u maxFloat64))).grid =
    (⟨[val 0, val (-3)], [val 1, bad], [2, 3], none⟩ : MLI (Fl (Rounding.correct 53 (by norm_num)))).grid.map (List.map (List.map mk)) := by
  have hm := maxFloat64_ge
  refine C112_grid _ _ maxFloat64 hm _ ?_ ?_ ?_
  · intro x hx
    simp at hx
    rcases hx with rfl | rfl <;> norm_num [abs_le] at * <;> linarith
  · intro x hx
    simp at hx
    subst hx
    norm_num at *
    linarith
  · intro n hn
    simp at hn
    rcases hn with rfl | rfl <;> norm_num

example := C112_limit (libRel_correct 53 (by norm_num)) double_u (by show 5 ≤ 53; norm_num) maxFloat64 maxFloat64_ge truncFl truncFl_ok (fun _ _ => bad) 1 2

end Verif.Props
