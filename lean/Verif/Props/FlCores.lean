import Verif.Props.FlColumn

/-!
# C77 on several cores: the presets for 1 km data with any number of processes
-/

namespace Verif.Props
open Verif Verif.Interpolator Verif.Spec Verif.Presets Verif.Multi Verif.Err Verif.Grid Verif.Geo

/-- row `i` of a matrix -/
abbrev rowOf {β : Type} (m : List (List β)) (i : Nat) : List β := m.getD i []

/-- What holds of every scan of the pieces holds of every scan of the result of the parallel computation.  `Rel` relates the
tie rows of a scan to its fine rows, and does not look at other rows. -/
theorem multi_scans {α : Type} {t k n N s cores : Nat} (ht : 1 ≤ t) {F : Mat α → Mat α → Except Err (Mat α × Mat α)}
    {Good1 Good2 : List α → Prop} {Rel : (Nat → List α) → (Nat → List α) → (Nat → List α) → (Nat → List α) → Prop}
    (hR : ∀ {x y u v x' y' u' v' : Nat → List α}, (∀ i < t, x i = x' i ∧ y i = y' i) → (∀ i < k, u i = u' i ∧ v i = v' i) →
      Rel x y u v → Rel x' y' u' v')
    (hF : ∀ c, 1 ≤ c → c ≤ s → ∀ lons lats : Mat α, Shape (c * t) n lons → Shape (c * t) n lats →
      (∀ x ∈ lons, Good1 x) → (∀ x ∈ lats, Good2 x) →
      ∃ lo la, F lons lats = .ok (lo, la) ∧ Shape (c * k) N lo ∧ Shape (c * k) N la ∧
        ∀ i < c, Rel (fun j => rowOf lons (i * t + j)) (fun j => rowOf lats (i * t + j)) (fun a => rowOf lo (i * k + a))
          (fun a => rowOf la (i * k + a))) (hs : 1 ≤ s)
    (hc : 1 ≤ cores) {lons lats : Mat α} (h1 : Shape (s * t) n lons) (h2 : Shape (s * t) n lats)
    (g1 : ∀ x ∈ lons, Good1 x) (g2 : ∀ x ∈ lats, Good2 x)
    {splits : List Nat} (h : sceneSplits (List.length lons) t cores = .ok splits) {sched : List Nat}
    (hp : sched.Perm (List.range (splits.length + 1))) :
    ∃ lo la, multi F lons lats t cores sched = .ok (lo, la) ∧ Shape (s * k) N lo ∧ Shape (s * k) N la ∧
      ∀ i < s, Rel (fun j => rowOf lons (i * t + j)) (fun j => rowOf lats (i * t + j)) (fun a => rowOf lo (i * k + a))
          (fun a => rowOf la (i * k + a)) := by
  obtain ⟨f1, f2, hw, m1, m2, _⟩ := pieces_whole ht hs hc h1.1 h2.1 h
  have hmem : ∀ p ∈ piecesOf lons lats splits, ∀ r, (r ∈ p.1 → r ∈ lons) ∧ (r ∈ p.2 → r ∈ lats) := by
    intro p hp' r
    obtain ⟨u, v⟩ := List.of_mem_zip (show (p.1, p.2) ∈ (vsplit lons splits).zip (vsplit lats splits) from hp')
    exact ⟨vsplit_mem u, vsplit_mem v⟩
  have hle : ∀ p ∈ piecesOf lons lats splits, ∀ c, p.1.length = c * t → c ≤ s := by
    intro p hp' c hl
    obtain ⟨u, _⟩ := List.of_mem_zip (show (p.1, p.2) ∈ (vsplit lons splits).zip (vsplit lats splits) from hp')
    have := (List.sublist_flatten_of_mem u).length_le
    rw [f1, h1.1, hl] at this
    exact Nat.le_of_mul_le_mul_right this (by omega)
  have key : ∀ ps : List (Mat α × Mat α), (∀ p ∈ ps, p ∈ piecesOf lons lats splits) →
      ∃ (res : List (Mat α × Mat α)) (m : Nat), List.Forall₂ (fun p r => F p.1 p.2 = .ok r) ps res ∧
        (ps.map (·.1)).flatten.length = m * t ∧ (ps.map (·.2)).flatten.length = m * t ∧
        Shape (m * k) N (res.map (·.1)).flatten ∧ Shape (m * k) N (res.map (·.2)).flatten ∧
        ∀ i < m, Rel (fun j => rowOf (ps.map (·.1)).flatten (i * t + j)) (fun j => rowOf (ps.map (·.2)).flatten (i * t + j))
          (fun a => rowOf (res.map (·.1)).flatten (i * k + a)) (fun a => rowOf (res.map (·.2)).flatten (i * k + a)) := by
    intro ps
    induction ps with
    | nil => intro _; exact ⟨[], 0, .nil, by simp, by simp, by simp [Shape], by simp [Shape], by simp⟩
    | cons p ps ih =>
      intro hps
      obtain ⟨res, m, r1, r2, r3, r4, r5, r6⟩ := ih (fun q hq => hps q (List.mem_cons_of_mem _ hq))
      have hpm := hps p (by simp)
      obtain ⟨c, c1, c2, c3⟩ := hw p hpm
      obtain ⟨lo, la, e, s1, s2, s3⟩ := hF c c1 (hle p hpm c c2) p.1 p.2 ⟨c2, fun r hr => h1.2 r ((hmem p hpm r).1 hr)⟩
        ⟨c3, fun r hr => h2.2 r ((hmem p hpm r).2 hr)⟩ (fun r hr => g1 r ((hmem p hpm r).1 hr))
        (fun r hr => g2 r ((hmem p hpm r).2 hr))
      have app : ∀ {x y : Mat α} {a b : Nat}, Shape (c * k) N x → Shape (m * k) N y → Shape ((c + m) * k) N (x ++ y) := by
        intro x y a b hx hy
        refine ⟨by rw [List.length_append, hx.1, hy.1, Nat.add_mul], ?_⟩
        intro r hr
        rcases List.mem_append.mp hr with hr | hr
        · exact hx.2 r hr
        · exact hy.2 r hr
      have lft : ∀ {x y : Mat α} {w i j : Nat}, x.length = c * w → i < c → j < w → rowOf (x ++ y) (i * w + j) = rowOf x (i * w + j) := by
        intro x y w i j hx hi hj
        have : (i + 1) * w ≤ c * w := Nat.mul_le_mul_right _ hi
        rw [Nat.add_mul] at this
        unfold rowOf
        rw [List.getD_eq_getElem?_getD, List.getD_eq_getElem?_getD, List.getElem?_append_left (by omega)]
      have rgt : ∀ {x y : Mat α} {w i j : Nat}, x.length = c * w → c ≤ i → rowOf (x ++ y) (i * w + j) = rowOf y ((i - c) * w + j) := by
        intro x y w i j hx hi
        have : c * w ≤ i * w := Nat.mul_le_mul_right _ hi
        unfold rowOf
        rw [List.getD_eq_getElem?_getD, List.getD_eq_getElem?_getD, List.getElem?_append_right (by omega), hx, Nat.sub_mul,
          show i * w + j - c * w = i * w - c * w + j by omega]
      refine ⟨(lo, la) :: res, c + m, .cons e r1, ?_, ?_, ?_, ?_, ?_⟩
      · rw [List.map_cons, List.flatten_cons, List.length_append, c2, r2, Nat.add_mul]
      · rw [List.map_cons, List.flatten_cons, List.length_append, c3, r3, Nat.add_mul]
      · rw [List.map_cons, List.flatten_cons]; exact app (a := 0) (b := 0) s1 r4
      · rw [List.map_cons, List.flatten_cons]; exact app (a := 0) (b := 0) s2 r5
      · intro i hi
        simp only [List.map_cons, List.flatten_cons]
        by_cases hic : i < c
        · refine hR ?_ ?_ (s3 i hic)
          · intro j hj
            exact ⟨(lft c2 hic hj).symm, (lft c3 hic hj).symm⟩
          · intro j hj
            exact ⟨(lft s1.1 hic hj).symm, (lft s2.1 hic hj).symm⟩
        · refine hR ?_ ?_ (r6 (i - c) (by omega))
          · intro j hj
            exact ⟨(rgt c2 (by omega)).symm, (rgt c3 (by omega)).symm⟩
          · intro j hj
            exact ⟨(rgt s1.1 (by omega)).symm, (rgt s2.1 (by omega)).symm⟩
  obtain ⟨res, m, r1, r2, r3, r4, r5, r6⟩ := key _ (fun _ h => h)
  rw [m1, f1] at r2
  rw [m1, f1, m2, f2] at r6
  have hm : m = s := Nat.eq_of_mul_eq_mul_right ht (by rw [← r2]; exact h1.1)
  subst hm
  exact ⟨_, _, (C19_any_schedule F lons lats t cores splits h sched (by rw [vsplit_length]; exact hp)).1 res r1, r4, r5, r6⟩

variable {r : Rounding} {ε ρ : ℝ}

/-- a row of real numbers, at most `M` in magnitude -/
def RealRow (M : ℝ) (x : List (Fl r)) : Prop := ∃ y : List ℝ, x = y.map Fl.val ∧ ∀ v ∈ y, |v| ≤ M

/-- the tie point in column `b` of tie row `i` -/
noncomputable def fineTieRow (x y : Nat → List (Fl r)) (i b : Nat) : ℝ × ℝ × ℝ :=
  spherePoint 6370997 (match el (x i) b with | .val v => v | .bad => 0) (match el (y i) b with | .val v => v | .bad => 0)

theorem realRow_mem {M : ℝ} {m : List (List ℝ)} (h : ∀ x ∈ m, ∀ y ∈ x, |y| ≤ M) : ∀ x ∈ (flvals m : Mat (Fl r)), RealRow M x := by
  intro x hx
  obtain ⟨y, hy, rfl⟩ := List.mem_map.mp hx
  exact ⟨y, rfl, h y hy⟩

theorem realRow_flvals {M : ℝ} {m : Mat (Fl r)} (h : ∀ x ∈ m, RealRow M x) : ∃ m' : List (List ℝ), m = flvals m' ∧
    ∀ x ∈ m', ∀ y ∈ x, |y| ≤ M := by
  induction m with
  | nil => exact ⟨[], rfl, by simp⟩
  | cons x m ih =>
    obtain ⟨m', e, b⟩ := ih (fun y hy => h y (List.mem_cons_of_mem _ hy))
    obtain ⟨y, e', b'⟩ := h x (by simp)
    refine ⟨y :: m', by rw [e, e']; rfl, ?_⟩
    intro z hz
    rcases List.mem_cons.mp hz with rfl | hz
    · exact b'
    · exact b z hz

theorem tieRow_flvals {a n : Nat} {lons lats : List (List ℝ)} (h1 : Shape a n lons) (h2 : Shape a n lats) {c i b : Nat} (hi : c + i < a)
    (hb : b < n) : fineTieRow (fun j => rowOf (flvals lons : Mat (Fl r)) (c + j)) (fun j => rowOf (flvals lats) (c + j)) i b
      = tieXyz lons lats (c + i) b := by
  have key : ∀ m : List (List ℝ), Shape a n m → el (rowOf (flvals m : Mat (Fl r)) (c + i)) b = .val ((m.getD (c + i) []).getD b 0) := by
    intro m hm
    exact elem_flvals (r := r) ⟨hm.1, hm.2⟩ hi hb
  unfold fineTieRow tieXyz
  simp only [key _ h1, key _ h2]

/-- **C77 (1 km to 500 m, any number of cores)**: the same on any number of cores, whatever the order in which the workers finish, for a
spline library of error `ρ` on every number of scans up to that of the swath. -/
theorem C77_modis1kmto500m_cores (hp : 23 ≤ r.p) (h : LibRel r ε) (hε : ε ≤ 1 / 4096) (S : SplLib (Fl r)) (s : Nat) (hs : 1 ≤ s)
    (hb : 512 * s ≤ 2 ^ r.p) (hρ0 : 0 ≤ ρ) (hρ : ρ ≤ 1 / 100)
    (A : ∀ c, 1 ≤ c → c ≤ s → SplAcc S ((grid500.rows c).map r.rnd) (grid500.cols.map r.rnd) ρ) (lons lats : List (List ℝ))
    (h1 : Shape (10 * s) 1354 lons) (h2 : Shape (10 * s) 1354 lats) (hlon : ∀ x ∈ lons, ∀ y ∈ x, |y| ≤ 180)
    (hlat : ∀ x ∈ lats, ∀ y ∈ x, |y| ≤ 90) (cores : Nat) (sched splits : List Nat)
    (hsp : sceneSplits (10 * s) 10 (max 1 cores) = .ok splits) (hsc : sched.Perm (List.range (splits.length + 1))) :
    ∃ lo la, modis1kmto500m S (flvals lons) (flvals lats) cores sched = .ok (lo, la) ∧ Shape (20 * s) 2708 lo ∧ Shape (20 * s) 2708 la ∧
      ∀ c a b j : Nat, c < s → a < 20 → b < 1354 → j < 9 → (j = 0 ∨ 2 * j < a) → (j = 8 ∨ a ≤ 2 * j + 2) →
        Accurate ε (16 * ρ + 89 * ε)
          (chord j (tieXyz lons lats (10 * c + j) b) (j + 1) (tieXyz lons lats (10 * c + j + 1) b) ((a - 1 / 2) / 2))
          (el (row lo (20 * c + a)) (2 * b), el (row la (20 * c + a)) (2 * b)) := by
  by_cases hcs : cores > 1
  swap
  · obtain ⟨lo, la, e, p⟩ := C77_modis1kmto500m hp h hε S s hs hb hρ0 hρ (A s hs le_rfl) lons lats h1 h2 hlon hlat
    refine ⟨lo, la, ?_, p⟩
    unfold modis1kmto500m at e ⊢
    rw [if_neg (by norm_num)] at e
    rw [if_neg hcs]
    exact e
  rw [Nat.mul_comm 10 s] at h1 h2
  rw [Nat.max_eq_right (by omega), Nat.mul_comm 10 s, ← (flvals_shape (r := r) h1).1] at hsp
  obtain ⟨Rel, hRel⟩ : ∃ Rel : (Nat → List (Fl r)) → (Nat → List (Fl r)) → (Nat → List (Fl r)) → (Nat → List (Fl r)) → Prop,
      Rel = fun x y u v => ∀ a b j : Nat, a < 20 → b < 1354 → j < 9 → (j = 0 ∨ 2 * j < a) → (j = 8 ∨ a ≤ 2 * j + 2) →
        Accurate ε (16 * ρ + 89 * ε) (chord j (fineTieRow x y j b) (j + 1) (fineTieRow x y (j + 1) b) ((a - 1 / 2) / 2))
          (el (u a) (2 * b), el (v a) (2 * b)) := ⟨_, rfl⟩
  obtain ⟨lo, la, e, s1, s2, hh⟩ := multi_scans (t := 10) (k := 20) (n := 1354) (N := 2708) (cores := cores) (by norm_num)
    (F := modis1kmto500mSingle S) (Good1 := RealRow 180) (Good2 := RealRow 90) (Rel := Rel) (by
      intro x y u v x' y' u' v' e1 e2 hr
      rw [hRel] at hr ⊢
      intro a b j ha hbb hj g1 g2
      have := hr a b j ha hbb hj g1 g2
      unfold fineTieRow at this ⊢
      rw [(e1 j (by omega)).1, (e1 j (by omega)).2, (e1 (j + 1) (by omega)).1, (e1 (j + 1) (by omega)).2, (e2 a ha).1, (e2 a ha).2] at this
      exact this) (by
      intro c c1 c2 lons lats g1 g2 k1 k2
      obtain ⟨m1, rfl, b1⟩ := realRow_flvals k1
      obtain ⟨m2, rfl, b2⟩ := realRow_flvals k2
      have g1' : Shape (10 * c) 1354 m1 := by
        refine ⟨?_, ?_⟩
        · have := g1.1
          rw [flvals, List.length_map] at this
          omega
        · intro x hx
          have := g1.2 (x.map Fl.val) (List.mem_map_of_mem hx)
          rwa [List.length_map] at this
      have g2' : Shape (10 * c) 1354 m2 := by
        refine ⟨?_, ?_⟩
        · have := g2.1
          rw [flvals, List.length_map] at this
          omega
        · intro x hx
          have := g2.2 (x.map Fl.val) (List.mem_map_of_mem hx)
          rwa [List.length_map] at this
      obtain ⟨lo, la, e, s1, s2, hh⟩ := C77_modis1kmto500m hp h hε S c c1 (by omega) hρ0 hρ (A c c1 c2) m1 m2 g1' g2' b1 b2
      unfold modis1kmto500m at e
      rw [if_neg (by norm_num)] at e
      rw [Nat.mul_comm 20 c] at s1 s2
      refine ⟨lo, la, e, s1, s2, ?_⟩
      intro i hi
      rw [hRel]
      intro a b j ha hbb hj g3 g4
      have := hh i a b j hi ha hbb hj g3 g4
      rw [tieRow_flvals g1' g2' (by omega) hbb, tieRow_flvals g1' g2' (by omega) hbb, Nat.mul_comm i 10, Nat.mul_comm i 20]
      exact this) hs (by omega) (flvals_shape h1) (flvals_shape h2) (realRow_mem hlon) (realRow_mem hlat) hsp hsc
  refine ⟨lo, la, by unfold modis1kmto500m; rw [if_pos hcs]; exact e, by rw [Nat.mul_comm]; exact s1, by rw [Nat.mul_comm]; exact s2, ?_⟩
  intro c a b j hc ha hbb hj g3 g4
  have := hh c hc
  rw [hRel] at this
  have := this a b j ha hbb hj g3 g4
  rw [tieRow_flvals h1 h2 (by omega) hbb, tieRow_flvals h1 h2 (by omega) hbb, Nat.mul_comm c 10, Nat.mul_comm c 20] at this
  exact this

/-- **C77 (1 km to 250 m, any number of cores)**: the same on any number of cores, whatever the order in which the workers finish, for a
spline library of error `ρ` on every number of scans up to that of the swath. -/
theorem C77_modis1kmto250m_cores (hp : 23 ≤ r.p) (h : LibRel r ε) (hε : ε ≤ 1 / 4096) (S : SplLib (Fl r)) (s : Nat) (hs : 1 ≤ s)
    (hb : 512 * s ≤ 2 ^ r.p) (hρ0 : 0 ≤ ρ) (hρ : ρ ≤ 1 / 100)
    (A : ∀ c, 1 ≤ c → c ≤ s → SplAcc S ((grid250.rows c).map r.rnd) (grid250.cols.map r.rnd) ρ) (lons lats : List (List ℝ))
    (h1 : Shape (10 * s) 1354 lons) (h2 : Shape (10 * s) 1354 lats) (hlon : ∀ x ∈ lons, ∀ y ∈ x, |y| ≤ 180)
    (hlat : ∀ x ∈ lats, ∀ y ∈ x, |y| ≤ 90) (cores : Nat) (sched splits : List Nat)
    (hsp : sceneSplits (10 * s) 10 (max 1 cores) = .ok splits) (hsc : sched.Perm (List.range (splits.length + 1))) :
    ∃ lo la, modis1kmto250m S (flvals lons) (flvals lats) cores sched = .ok (lo, la) ∧ Shape (40 * s) 5416 lo ∧ Shape (40 * s) 5416 la ∧
      ∀ c a b j : Nat, c < s → a < 40 → b < 1354 → j < 9 → (j = 0 ∨ 4 * j + 1 < a) → (j = 8 ∨ a ≤ 4 * j + 5) →
        Accurate ε (16 * ρ + 89 * ε)
          (chord j (tieXyz lons lats (10 * c + j) b) (j + 1) (tieXyz lons lats (10 * c + j + 1) b) ((a - 3 / 2) / 4))
          (el (row lo (40 * c + a)) (4 * b), el (row la (40 * c + a)) (4 * b)) := by
  by_cases hcs : cores > 1
  swap
  · obtain ⟨lo, la, e, p⟩ := C77_modis1kmto250m hp h hε S s hs hb hρ0 hρ (A s hs le_rfl) lons lats h1 h2 hlon hlat
    refine ⟨lo, la, ?_, p⟩
    unfold modis1kmto250m at e ⊢
    rw [if_neg (by norm_num)] at e
    rw [if_neg hcs]
    exact e
  rw [Nat.mul_comm 10 s] at h1 h2
  rw [Nat.max_eq_right (by omega), Nat.mul_comm 10 s, ← (flvals_shape (r := r) h1).1] at hsp
  obtain ⟨Rel, hRel⟩ : ∃ Rel : (Nat → List (Fl r)) → (Nat → List (Fl r)) → (Nat → List (Fl r)) → (Nat → List (Fl r)) → Prop,
      Rel = fun x y u v => ∀ a b j : Nat, a < 40 → b < 1354 → j < 9 → (j = 0 ∨ 4 * j + 1 < a) → (j = 8 ∨ a ≤ 4 * j + 5) →
        Accurate ε (16 * ρ + 89 * ε) (chord j (fineTieRow x y j b) (j + 1) (fineTieRow x y (j + 1) b) ((a - 3 / 2) / 4))
          (el (u a) (4 * b), el (v a) (4 * b)) := ⟨_, rfl⟩
  obtain ⟨lo, la, e, s1, s2, hh⟩ := multi_scans (t := 10) (k := 40) (n := 1354) (N := 5416) (cores := cores) (by norm_num)
    (F := modis1kmto250mSingle S) (Good1 := RealRow 180) (Good2 := RealRow 90) (Rel := Rel) (by
      intro x y u v x' y' u' v' e1 e2 hr
      rw [hRel] at hr ⊢
      intro a b j ha hbb hj g1 g2
      have := hr a b j ha hbb hj g1 g2
      unfold fineTieRow at this ⊢
      rw [(e1 j (by omega)).1, (e1 j (by omega)).2, (e1 (j + 1) (by omega)).1, (e1 (j + 1) (by omega)).2, (e2 a ha).1, (e2 a ha).2] at this
      exact this) (by
      intro c c1 c2 lons lats g1 g2 k1 k2
      obtain ⟨m1, rfl, b1⟩ := realRow_flvals k1
      obtain ⟨m2, rfl, b2⟩ := realRow_flvals k2
      have g1' : Shape (10 * c) 1354 m1 := by
        refine ⟨?_, ?_⟩
        · have := g1.1
          rw [flvals, List.length_map] at this
          omega
        · intro x hx
          have := g1.2 (x.map Fl.val) (List.mem_map_of_mem hx)
          rwa [List.length_map] at this
      have g2' : Shape (10 * c) 1354 m2 := by
        refine ⟨?_, ?_⟩
        · have := g2.1
          rw [flvals, List.length_map] at this
          omega
        · intro x hx
          have := g2.2 (x.map Fl.val) (List.mem_map_of_mem hx)
          rwa [List.length_map] at this
      obtain ⟨lo, la, e, s1, s2, hh⟩ := C77_modis1kmto250m hp h hε S c c1 (by omega) hρ0 hρ (A c c1 c2) m1 m2 g1' g2' b1 b2
      unfold modis1kmto250m at e
      rw [if_neg (by norm_num)] at e
      rw [Nat.mul_comm 40 c] at s1 s2
      refine ⟨lo, la, e, s1, s2, ?_⟩
      intro i hi
      rw [hRel]
      intro a b j ha hbb hj g3 g4
      have := hh i a b j hi ha hbb hj g3 g4
      rw [tieRow_flvals g1' g2' (by omega) hbb, tieRow_flvals g1' g2' (by omega) hbb, Nat.mul_comm i 10, Nat.mul_comm i 40]
      exact this) hs (by omega) (flvals_shape h1) (flvals_shape h2) (realRow_mem hlon) (realRow_mem hlat) hsp hsc
  refine ⟨lo, la, by unfold modis1kmto250m; rw [if_pos hcs]; exact e, by rw [Nat.mul_comm]; exact s1, by rw [Nat.mul_comm]; exact s2, ?_⟩
  intro c a b j hc ha hbb hj g3 g4
  have := hh c hc
  rw [hRel] at this
  have := this a b j ha hbb hj g3 g4
  rw [tieRow_flvals h1 h2 (by omega) hbb, tieRow_flvals h1 h2 (by omega) hbb, Nat.mul_comm c 10, Nat.mul_comm c 40] at this
  exact this

private theorem u53 : (Rounding.correct 53 (by norm_num)).u = 1 / 2 ^ 53 := by
  show (2 : ℝ) ^ (-((53 : ℕ) : ℤ)) = _
  rw [zpow_neg, zpow_natCast]; norm_num

private theorem bounded_grid {a b : Nat} {f : Nat → Nat → ℝ} {m : ℝ} (hf : ∀ i < a, ∀ j < b, |f i j| ≤ m) :
    ∀ x ∈ (List.range a).map (fun i => (List.range b).map (f i)), ∀ y ∈ x, |y| ≤ m := by
  intro x hx y hy
  obtain ⟨i, hi, rfl⟩ := List.mem_map.mp hx
  obtain ⟨j, hj, rfl⟩ := List.mem_map.mp hy
  exact hf i (List.mem_range.mp hi) j (List.mem_range.mp hj)

example := C77_modis1kmto250m_cores (r := .correct 53 (by norm_num)) (by show 23 ≤ 53; norm_num) (libRel_correct 53 (by norm_num))
  (by rw [u53]; norm_num) (splRnd _) 3 (by norm_num) (by show 512 * 3 ≤ 2 ^ 53; norm_num) (Rounding.u_pos _).le (by rw [u53]; norm_num)
  (fun c c1 c2 => splAcc_splRnd
    (rows_fl_sorted (flGrid250 (s := c) (by show 16 ≤ 53; norm_num) c1 (by show 512 * c ≤ 2 ^ 53; omega)))
    (cols_fl_sorted (flGrid250 (s := 3) (by show 16 ≤ 53; norm_num) (by norm_num) (by show 512 * 3 ≤ 2 ^ 53; norm_num)))
    (by rw [List.length_map]; have := cols_length grid250; have : (4 : Nat) ≤ grid250.n := grid250.hn; omega))
  _ _ (shape_grid 30 1354 (fun i j => (j : ℝ) / 100 + i)) (shape_grid 30 1354 (fun i j => (i : ℝ) + j / 100))
  (bounded_grid (fun i hi j hj => by
    have h1 : (i : ℝ) ≤ 30 := by exact_mod_cast hi.le
    have h2 : (j : ℝ) ≤ 1354 := by exact_mod_cast hj.le
    rw [abs_of_nonneg (by positivity)]; linarith))
  (bounded_grid (fun i hi j hj => by
    have h1 : (i : ℝ) ≤ 30 := by exact_mod_cast hi.le
    have h2 : (j : ℝ) ≤ 1354 := by exact_mod_cast hj.le
    rw [abs_of_nonneg (by positivity)]; linarith)) 2 [2, 0, 1] [10, 20] (by decide) (by decide)

/-- doubles, three scans on two cores (three pieces), the workers finishing in another order -/
example := C77_modis1kmto500m_cores (r := .correct 53 (by norm_num)) (by show 23 ≤ 53; norm_num) (libRel_correct 53 (by norm_num))
  (by rw [u53]; norm_num) (splRnd _) 3 (by norm_num) (by show 512 * 3 ≤ 2 ^ 53; norm_num) (Rounding.u_pos _).le (by rw [u53]; norm_num)
  (fun c c1 c2 => splAcc_splRnd
    (rows_fl_sorted (flGrid500 (s := c) (by show 16 ≤ 53; norm_num) c1 (by show 512 * c ≤ 2 ^ 53; omega)))
    (cols_fl_sorted (flGrid500 (s := 3) (by show 16 ≤ 53; norm_num) (by norm_num) (by show 512 * 3 ≤ 2 ^ 53; norm_num)))
    (by rw [List.length_map]; have := cols_length grid500; have : (4 : Nat) ≤ grid500.n := grid500.hn; omega))
  _ _ (shape_grid 30 1354 (fun i j => (j : ℝ) / 100 + i)) (shape_grid 30 1354 (fun i j => (i : ℝ) + j / 100))
  (bounded_grid (fun i hi j hj => by
    have h1 : (i : ℝ) ≤ 30 := by exact_mod_cast hi.le
    have h2 : (j : ℝ) ≤ 1354 := by exact_mod_cast hj.le
    rw [abs_of_nonneg (by positivity)]; linarith))
  (bounded_grid (fun i hi j hj => by
    have h1 : (i : ℝ) ≤ 30 := by exact_mod_cast hi.le
    have h2 : (j : ℝ) ≤ 1354 := by exact_mod_cast hj.le
    rw [abs_of_nonneg (by positivity)]; linarith)) 2 [2, 0, 1] [10, 20] (by decide) (by decide)

end Verif.Props
