import Verif.Proofs.PresetsGeo

/-!
# C15, C16, C17: the MODIS presets on whole scans
-/

set_option linter.unusedSectionVars false

namespace Verif.Props
open Verif Verif.Interpolator Verif.Spec Verif.Presets Verif.Multi FP

/-- a matrix of `a` rows and `b` columns -/
def Shape {β : Type} (a b : Nat) (m : List (List β)) : Prop := m.length = a ∧ ∀ r ∈ m, r.length = b

/-! ### pieces of a swath -/

theorem vsplit_lengths {β γ : Type} (a : List β) (b : List γ) (h : a.length = b.length) (splits : List Nat) :
    (vsplit a splits).map List.length = (vsplit b splits).map List.length := by
  unfold vsplit
  rw [List.map_zipWith, List.map_zipWith, h]
  have : ∀ x y, (slice a x y).length = (slice b x y).length := by
    intro x y; simp [slice, h]
  simp only [this]

theorem vsplit_mem {β : Type} {a : List β} {splits : List Nat} {p : List β} (h : p ∈ vsplit a splits) {x : β} (hx : x ∈ p) :
    x ∈ a := by
  obtain ⟨u, _, v, _, rfl⟩ := mem_zipWith h
  exact List.mem_of_mem_take (List.mem_of_mem_drop hx)

/-- the pieces of a swath of whole scans are swaths of whole scans -/
theorem pieces_whole {β : Type} {lons lats : List β} {t s cores : Nat} (ht : 1 ≤ t) (hs : 1 ≤ s) (hc : 1 ≤ cores)
    (h1 : lons.length = s * t) (h2 : lats.length = s * t) {splits : List Nat}
    (h : sceneSplits lons.length t cores = .ok splits) :
    (vsplit lons splits).flatten = lons ∧ (vsplit lats splits).flatten = lats ∧
    (∀ p ∈ piecesOf lons lats splits, ∃ c, 1 ≤ c ∧ p.1.length = c * t ∧ p.2.length = c * t) ∧
    (piecesOf lons lats splits).map (·.1) = vsplit lons splits ∧
    (piecesOf lons lats splits).map (·.2) = vsplit lats splits ∧ piecesOf lons lats splits ≠ [] := by
  have hpos : 1 ≤ s * t := Nat.mul_pos hs ht
  obtain ⟨sp, a1, a2, a3, a4, a5, a6, a7⟩ := C18_scene_splits lons t cores ht hc (by omega)
  rw [a1] at h
  injection h with h
  subst h
  have hl : (vsplit lons sp).length = (vsplit lats sp).length := by rw [vsplit_length, vsplit_length]
  refine ⟨a4, vsplit_flatten _ _ a2 (fun x hx => by have := (a3 x hx).2.1; omega), ?_, ?_, ?_, ?_⟩
  · intro p hp
    obtain ⟨i, hi, rfl⟩ := List.mem_iff_getElem.mp hp
    have hi1 : i < (vsplit lons sp).length := by simp [piecesOf] at hi; omega
    have hi2 : i < (vsplit lats sp).length := by omega
    have e : (piecesOf lons lats sp)[i] = ((vsplit lons sp)[i], (vsplit lats sp)[i]) := by simp [piecesOf]
    rw [e]
    obtain ⟨c, hcc⟩ := a7 i hi1 (Or.inr ⟨s, by rw [h1]; ring⟩)
    have hne : (vsplit lons sp)[i].length ≠ 0 := fun h0 => a6 _ (List.getElem_mem hi1) (List.length_eq_zero_iff.mp h0)
    have hle := vsplit_lengths lons lats (by omega) sp
    have hle' : (vsplit lons sp)[i].length = (vsplit lats sp)[i].length := by
      have h1' : ((vsplit lons sp).map List.length)[i]'(by simpa using hi1) = (vsplit lons sp)[i].length := by simp
      have h2' : ((vsplit lats sp).map List.length)[i]'(by simpa using hi2) = (vsplit lats sp)[i].length := by simp
      rw [← h1', ← h2']
      simp only [hle]
    refine ⟨c, ?_, by rw [hcc]; ring, by show (vsplit lats sp)[i].length = _; rw [← hle', hcc]; ring⟩
    rcases Nat.eq_zero_or_pos c with rfl | h
    · exact absurd (by rw [hcc]; simp) hne
    · exact h
  · exact List.map_fst_zip (le_of_eq hl)
  · exact List.map_snd_zip (le_of_eq hl.symm)
  · intro he
    have := congrArg List.length he
    simp [piecesOf, vsplit_length] at this

/-! ### C15 -/

/-- a preset for swaths of whole scans, whatever the data and the spline library -/
structure IsPreset (G : ScanGrid ℝ) (S : SplLib (FP ℝ)) (F : Mat (FP ℝ) → Mat (FP ℝ) → Except Err (Mat (FP ℝ) × Mat (FP ℝ))) :
    Prop where
  eq : ∀ s, 1 ≤ s → ∀ lons lats, List.length lons = s * G.t →
    F lons lats = geoInterpXyz S ["y", "x"] (G.state s (geoTies lons lats))

theorem isPreset5 (S : SplLib (FP ℝ)) : IsPreset grid5 S (modis5kmto1km S) := ⟨fun _ hs _ _ h => modis5_eq S hs h⟩
theorem isPreset500 (S : SplLib (FP ℝ)) : IsPreset grid500 S (modis1kmto500mSingle S) := ⟨fun _ _ _ _ h => modis500_eq S h⟩
theorem isPreset250 (S : SplLib (FP ℝ)) : IsPreset grid250 S (modis1kmto250mSingle S) := ⟨fun _ _ _ _ h => modis250_eq S h⟩

theorem preset_shape {G : ScanGrid ℝ} {S : SplLib (FP ℝ)} {F} (hF : IsPreset G S F) {s : Nat} (hs : 1 ≤ s)
    {lons lats : Mat (FP ℝ)} (h1 : Shape (s * G.t) G.n lons) (h2 : Shape (s * G.t) G.n lats) :
    ∃ lo la, F lons lats = .ok (lo, la) ∧ Shape (s * G.k) G.N lo ∧ Shape (s * G.k) G.N la := by
  obtain ⟨lo, la, a, b, c, d, e⟩ := geo_shape G hs S h1.1 h2.1 h1.2 h2.2
  exact ⟨lo, la, by rw [hF.eq s hs _ _ h1.1]; exact a, ⟨b, d⟩, ⟨c, e⟩⟩

/-- the parallel computation on a swath of whole scans, for a function with this shape on up to `s` scans -/
theorem multi_shape_of {α : Type} {t k n N s cores : Nat} (ht : 1 ≤ t) {F : Mat α → Mat α → Except Err (Mat α × Mat α)}
    (hF : ∀ c, 1 ≤ c → c ≤ s → ∀ lons lats : Mat α, Shape (c * t) n lons → Shape (c * t) n lats →
      ∃ lo la, F lons lats = .ok (lo, la) ∧ Shape (c * k) N lo ∧ Shape (c * k) N la) (hs : 1 ≤ s)
    (hc : 1 ≤ cores) {lons lats : Mat α} (h1 : Shape (s * t) n lons) (h2 : Shape (s * t) n lats)
    {splits : List Nat} (h : sceneSplits (List.length lons) t cores = .ok splits) {sched : List Nat}
    (hp : sched.Perm (List.range (splits.length + 1))) :
    ∃ lo la, multi F lons lats t cores sched = .ok (lo, la) ∧ Shape (s * k) N lo ∧ Shape (s * k) N la := by
  obtain ⟨f1, f2, hw, m1, m2, _⟩ := pieces_whole ht hs hc h1.1 h2.1 h
  have hmem : ∀ p ∈ piecesOf lons lats splits, (∀ r ∈ p.1, r.length = n) ∧ ∀ r ∈ p.2, r.length = n := by
    intro p hp'
    obtain ⟨u, v⟩ := List.of_mem_zip (show (p.1, p.2) ∈ (vsplit lons splits).zip (vsplit lats splits) from hp')
    exact ⟨fun r hr => h1.2 r (vsplit_mem u hr), fun r hr => h2.2 r (vsplit_mem v hr)⟩
  have hle : ∀ p ∈ piecesOf lons lats splits, ∀ c, p.1.length = c * t → c ≤ s := by
    intro p hp' c hl
    obtain ⟨u, _⟩ := List.of_mem_zip (show (p.1, p.2) ∈ (vsplit lons splits).zip (vsplit lats splits) from hp')
    have := (List.sublist_flatten_of_mem u).length_le
    rw [f1, h1.1, hl] at this
    exact Nat.le_of_mul_le_mul_right this (by omega)
  have key : ∀ ps : List (Mat (α) × Mat (α)), (∀ p ∈ ps, p ∈ piecesOf lons lats splits) →
      ∃ res : List (Mat (α) × Mat (α)), List.Forall₂ (fun p r => F p.1 p.2 = .ok r) ps res ∧
        (∀ r ∈ (res.map (·.1)).flatten, r.length = N) ∧ (∀ r ∈ (res.map (·.2)).flatten, r.length = N) ∧
        (res.map (·.1)).flatten.length * t = (ps.map (·.1)).flatten.length * k ∧
        (res.map (·.2)).flatten.length * t = (ps.map (·.1)).flatten.length * k := by
    intro ps
    induction ps with
    | nil => intro _; exact ⟨[], .nil, by simp, by simp, by simp, by simp⟩
    | cons p ps ih =>
      intro hps
      obtain ⟨res, r1, r2, r3, r4, r5⟩ := ih (fun q hq => hps q (List.mem_cons_of_mem _ hq))
      obtain ⟨c, c1, c2, c3⟩ := hw p (hps p (by simp))
      obtain ⟨w1, w2⟩ := hmem p (hps p (by simp))
      obtain ⟨lo, la, e, s1, s2⟩ := hF c c1 (hle p (hps p (by simp)) c c2) _ _ ⟨c2, w1⟩ ⟨c3, w2⟩
      refine ⟨(lo, la) :: res, .cons e r1, ?_, ?_, ?_, ?_⟩
      · intro r hr
        rw [List.map_cons, List.flatten_cons] at hr
        rcases List.mem_append.mp hr with hr | hr
        · exact s1.2 r hr
        · exact r2 r hr
      · intro r hr
        rw [List.map_cons, List.flatten_cons] at hr
        rcases List.mem_append.mp hr with hr | hr
        · exact s2.2 r hr
        · exact r3 r hr
      · simp only [List.map_cons, List.flatten_cons, List.length_append, Nat.add_mul] at r4 ⊢
        rw [r4, s1.1, c2]
        ring
      · simp only [List.map_cons, List.flatten_cons, List.length_append, Nat.add_mul] at r5 ⊢
        rw [r5, s2.1, c2]
        ring
  obtain ⟨res, r1, r2, r3, r4, r5⟩ := key _ (fun _ h => h)
  have hl : (((piecesOf lons lats splits).map (·.1)).flatten).length = s * t := by rw [m1, f1]; exact h1.1
  rw [hl] at r4 r5
  refine ⟨_, _, (C19_any_schedule F lons lats t cores splits h sched (by rw [vsplit_length]; exact hp)).1 res r1,
    ⟨Nat.eq_of_mul_eq_mul_right ht (by rw [r4]; ring), r2⟩, ⟨Nat.eq_of_mul_eq_mul_right ht (by rw [r5]; ring), r3⟩⟩

theorem multi_shape {G : ScanGrid ℝ} {S : SplLib (FP ℝ)} {F} (hF : IsPreset G S F) {s cores : Nat} (hs : 1 ≤ s)
    (hc : 1 ≤ cores) {lons lats : Mat (FP ℝ)} (h1 : Shape (s * G.t) G.n lons) (h2 : Shape (s * G.t) G.n lats)
    {splits : List Nat} (h : sceneSplits (List.length lons) G.t cores = .ok splits) {sched : List Nat}
    (hp : sched.Perm (List.range (splits.length + 1))) :
    ∃ lo la, multi F lons lats G.t cores sched = .ok (lo, la) ∧ Shape (s * G.k) G.N lo ∧ Shape (s * G.k) G.N la :=
  multi_shape_of (by have := G.ht; omega) (fun _ hc1 _ _ _ g1 g2 => preset_shape hF hc1 g1 g2) hs hc h1 h2 h hp

/-- **C15 (5 km to 1 km)**: any positive number of whole scans of two lines and 271 columns, any content (numbers or
not), any spline library: the call succeeds and returns five times as many lines, 1354 columns wide. -/
theorem C15_modis5kmto1km (S : SplLib (FP ℝ)) (s : Nat) (hs : 1 ≤ s) (lons lats : Mat (FP ℝ))
    (h1 : Shape (2 * s) 271 lons) (h2 : Shape (2 * s) 271 lats) :
    ∃ lo la, modis5kmto1km S lons lats = .ok (lo, la) ∧ Shape (5 * (2 * s)) 1354 lo ∧ Shape (5 * (2 * s)) 1354 la := by
  rw [Nat.mul_comm] at h1 h2
  obtain ⟨lo, la, a, b, c⟩ := preset_shape (isPreset5 S) hs h1 h2
  rw [show 5 * (2 * s) = s * 10 by ring]
  exact ⟨lo, la, a, b, c⟩

/-- **C15 (1 km to 500 m)**, for any number of cores and any order in which the workers finish: twice as many lines,
2708 columns. -/
theorem C15_modis1kmto500m (S : SplLib (FP ℝ)) (s : Nat) (hs : 1 ≤ s) (lons lats : Mat (FP ℝ))
    (h1 : Shape (10 * s) 1354 lons) (h2 : Shape (10 * s) 1354 lats) (cores : Nat) (sched splits : List Nat)
    (hsp : sceneSplits (10 * s) 10 (max 1 cores) = .ok splits) (hp : sched.Perm (List.range (splits.length + 1))) :
    ∃ lo la, modis1kmto500m S lons lats cores sched = .ok (lo, la) ∧ Shape (2 * (10 * s)) 2708 lo ∧
      Shape (2 * (10 * s)) 2708 la := by
  have h1l := h1.1
  rw [Nat.mul_comm 10 s] at h1 h2
  rw [show 2 * (10 * s) = s * 20 by ring]
  unfold modis1kmto500m
  by_cases hc : cores > 1
  · rw [if_pos hc]
    rw [Nat.max_eq_right (by omega), ← h1l] at hsp
    exact multi_shape (isPreset500 S) hs (by omega) h1 h2 hsp hp
  · rw [if_neg hc]
    exact preset_shape (isPreset500 S) hs h1 h2

/-- **C15 (1 km to 250 m)**, for any number of cores and any order in which the workers finish: four times as many
lines, 5416 columns. -/
theorem C15_modis1kmto250m (S : SplLib (FP ℝ)) (s : Nat) (hs : 1 ≤ s) (lons lats : Mat (FP ℝ))
    (h1 : Shape (10 * s) 1354 lons) (h2 : Shape (10 * s) 1354 lats) (cores : Nat) (sched splits : List Nat)
    (hsp : sceneSplits (10 * s) 10 (max 1 cores) = .ok splits) (hp : sched.Perm (List.range (splits.length + 1))) :
    ∃ lo la, modis1kmto250m S lons lats cores sched = .ok (lo, la) ∧ Shape (4 * (10 * s)) 5416 lo ∧
      Shape (4 * (10 * s)) 5416 la := by
  have h1l := h1.1
  rw [Nat.mul_comm 10 s] at h1 h2
  rw [show 4 * (10 * s) = s * 40 by ring]
  unfold modis1kmto250m
  by_cases hc : cores > 1
  · rw [if_pos hc]
    rw [Nat.max_eq_right (by omega), ← h1l] at hsp
    exact multi_shape (isPreset250 S) hs (by omega) h1 h2 hsp hp
  · rw [if_neg hc]
    exact preset_shape (isPreset250 S) hs h1 h2

theorem shape_const {β : Type} (a b : Nat) (x : β) : Shape a b (List.replicate a (List.replicate b x)) := by
  refine ⟨by simp, ?_⟩
  intro r hr
  rw [(List.mem_replicate.mp hr).2]; simp

/-- seven scans, even of nothing but non-numbers -/
example (S : SplLib (FP ℝ)) := C15_modis5kmto1km S 7 (by norm_num) _ _ (shape_const 14 271 bad) (shape_const 14 271 (val 3))

/-- seven scans on three cores: cuts after 20, 40 and 60 lines, finished in the order 3, 1, 0, 2 -/
example (S : SplLib (FP ℝ)) := C15_modis1kmto500m S 7 (by norm_num) _ _ (shape_const 70 1354 (val 10))
  (shape_const 70 1354 (val 3)) 3 [3, 1, 0, 2] [20, 40, 60] (by decide) (by decide)

example (S : SplLib (FP ℝ)) := C15_modis1kmto250m S 7 (by norm_num) _ _ (shape_const 70 1354 (val 10))
  (shape_const 70 1354 bad) 3 [3, 1, 0, 2] [20, 40, 60] (by decide) (by decide)

/-! ### C16 -/

theorem preset_local {G : ScanGrid ℝ} {S : SplLib (FP ℝ)} {F} (hF : IsPreset G S F)
    (hS1 : ∀ xs ys x, S 1 xs ys x = linSeg xs ys x) (hS3 : SplNum S) (lonS latS : List (Mat (FP ℝ)))
    (hne : lonS ≠ []) (hl : lonS.length = latS.length)
    (h1 : ∀ m ∈ lonS, Shape G.t G.n m ∧ NumMat m) (h2 : ∀ m ∈ latS, Shape G.t G.n m ∧ NumMat m) :
    ∃ res, List.Forall₂ (fun (p : Mat (FP ℝ) × Mat (FP ℝ)) r => F p.1 p.2 = .ok r) (lonS.zip latS) res ∧
      F lonS.flatten latS.flatten = .ok ((res.map (·.1)).flatten, (res.map (·.2)).flatten) := by
  have hs : 1 ≤ lonS.length := by
    rcases Nat.eq_zero_or_pos lonS.length with h | h
    · exact absurd (List.length_eq_zero_iff.mp h) hne
    · exact h
  obtain ⟨res, r1, r2⟩ := geo_local G hs S hS1 hS3 rfl ⟨hl, by
      intro m hm
      rcases List.mem_append.mp hm with hm | hm
      · exact (h1 m hm).1.1
      · exact (h2 m hm).1.1, by
      intro m hm
      rcases List.mem_append.mp hm with hm | hm
      · exact (h1 m hm).1.2
      · exact (h2 m hm).1.2⟩ (fun m hm => (h1 m hm).2) (fun m hm => (h2 m hm).2)
  refine ⟨res, forall₂_mem r1 ?_, ?_⟩
  · rintro ⟨lo, la⟩ hp r hr
    rw [hF.eq 1 (le_refl _)]
    · exact hr
    · rw [Nat.one_mul]; exact (h1 lo (List.of_mem_zip hp).1).1.1
  · rw [hF.eq lonS.length hs]
    · exact r2
    · rw [List.length_flatten]
      have : lonS.map List.length = List.replicate lonS.length G.t := by
        rw [List.eq_replicate_iff]
        refine ⟨by simp, ?_⟩
        intro b hb
        obtain ⟨m, hm, rfl⟩ := List.mem_map.mp hb
        exact (h1 m hm).1.1
      rw [this, List.sum_replicate]; rfl

/-- **C16 (5 km to 1 km, partial)**: processing several scans at once gives the stacked results of processing each scan
alone, for all scans of numbers.  `hS1`: the first-order spline library is piecewise linear; `hS3`: its cubic spline of
numbers is a number.  Missing part of C16: contents that are not numbers (see `C16_negation`). -/
theorem C16_modis5kmto1km_partial (S : SplLib (FP ℝ)) (hS1 : ∀ xs ys x, S 1 xs ys x = linSeg xs ys x) (hS3 : SplNum S)
    (lonS latS : List (Mat (FP ℝ))) (hne : lonS ≠ []) (hl : lonS.length = latS.length)
    (h1 : ∀ m ∈ lonS, Shape 2 271 m ∧ NumMat m) (h2 : ∀ m ∈ latS, Shape 2 271 m ∧ NumMat m) :
    ∃ res, List.Forall₂ (fun (p : Mat (FP ℝ) × Mat (FP ℝ)) r => modis5kmto1km S p.1 p.2 = .ok r) (lonS.zip latS) res ∧
      modis5kmto1km S lonS.flatten latS.flatten = .ok ((res.map (·.1)).flatten, (res.map (·.2)).flatten) :=
  preset_local (isPreset5 S) hS1 hS3 lonS latS hne hl h1 h2

/-- **C16 (1 km to 500 m, partial)** -/
theorem C16_modis1kmto500m_partial (S : SplLib (FP ℝ)) (hS1 : ∀ xs ys x, S 1 xs ys x = linSeg xs ys x) (hS3 : SplNum S)
    (lonS latS : List (Mat (FP ℝ))) (hne : lonS ≠ []) (hl : lonS.length = latS.length)
    (h1 : ∀ m ∈ lonS, Shape 10 1354 m ∧ NumMat m) (h2 : ∀ m ∈ latS, Shape 10 1354 m ∧ NumMat m) :
    ∃ res, List.Forall₂ (fun (p : Mat (FP ℝ) × Mat (FP ℝ)) r => modis1kmto500m S p.1 p.2 1 [] = .ok r) (lonS.zip latS) res ∧
      modis1kmto500m S lonS.flatten latS.flatten 1 [] = .ok ((res.map (·.1)).flatten, (res.map (·.2)).flatten) :=
  preset_local (isPreset500 S) hS1 hS3 lonS latS hne hl h1 h2

/-- **C16 (1 km to 250 m, partial)** -/
theorem C16_modis1kmto250m_partial (S : SplLib (FP ℝ)) (hS1 : ∀ xs ys x, S 1 xs ys x = linSeg xs ys x) (hS3 : SplNum S)
    (lonS latS : List (Mat (FP ℝ))) (hne : lonS ≠ []) (hl : lonS.length = latS.length)
    (h1 : ∀ m ∈ lonS, Shape 10 1354 m ∧ NumMat m) (h2 : ∀ m ∈ latS, Shape 10 1354 m ∧ NumMat m) :
    ∃ res, List.Forall₂ (fun (p : Mat (FP ℝ) × Mat (FP ℝ)) r => modis1kmto250m S p.1 p.2 1 [] = .ok r) (lonS.zip latS) res ∧
      modis1kmto250m S lonS.flatten latS.flatten 1 [] = .ok ((res.map (·.1)).flatten, (res.map (·.2)).flatten) :=
  preset_local (isPreset250 S) hS1 hS3 lonS latS hne hl h1 h2

/-- the piecewise linear library satisfies the hypotheses -/
theorem splNum_linSeg : SplNum (K := ℝ) (fun _ => linSeg) := by
  have gen : ∀ ks ys : List ℝ, ks.Pairwise (· < ·) → ys.length = ks.length → 2 ≤ ks.length → ∀ x : ℝ,
      IsNum (linSeg (ks.map val) (ys.map val) (val x) : FP ℝ) := by
    intro ks
    induction ks with
    | nil => intro ys _ _ h; simp at h
    | cons k0 ks ih =>
      intro ys hs hl h2 x
      match ks, ys, hs, hl, h2, ih with
      | k1 :: ks, y0 :: y1 :: ys, hs, hl, _, ih =>
        have hne : k1 - k0 ≠ 0 := sub_ne_zero.mpr (ne_of_gt ((List.pairwise_cons.mp hs).1 k1 (by simp)))
        simp only [List.map_cons, linSeg]
        split
        · simp only [val_sub, val_div_of_ne _ hne, val_mul, val_add]
          exact isNum_val _
        · rename_i hcond
          cases ks with
          | nil => simp at hcond
          | cons k2 ks =>
            exact ih (y1 :: ys) (List.pairwise_cons.mp hs).2 (by simpa using hl) (by simp) x
  intro ks ys hs hl h3 x
  exact gen ks ys hs hl (by omega) x

theorem numMat_const (a b : Nat) (x : ℝ) : NumMat (List.replicate a (List.replicate b (val x))) := by
  intro r hr v hv
  rw [(List.mem_replicate.mp hr).2] at hv
  rw [(List.mem_replicate.mp hv).2]
  exact isNum_val _

example := C16_modis1kmto500m_partial (fun _ => linSeg) (fun _ _ _ => rfl) splNum_linSeg
  [List.replicate 10 (List.replicate 1354 (val 10)), List.replicate 10 (List.replicate 1354 (val 11))]
  (List.replicate 2 (List.replicate 10 (List.replicate 1354 (val 60)))) (List.cons_ne_nil _ _) rfl
  (by intro m hm; simp only [List.mem_cons, List.not_mem_nil, or_false] at hm
      rcases hm with rfl | rfl <;> exact ⟨shape_const _ _ _, numMat_const _ _ _⟩)
  (by intro m hm; rw [(List.mem_replicate.mp hm).2]; exact ⟨shape_const _ _ _, numMat_const _ _ _⟩)

example := C16_modis1kmto250m_partial (fun _ => linSeg) (fun _ _ _ => rfl) splNum_linSeg
  [List.replicate 10 (List.replicate 1354 (val 10)), List.replicate 10 (List.replicate 1354 (val 11))]
  (List.replicate 2 (List.replicate 10 (List.replicate 1354 (val 60)))) (List.cons_ne_nil _ _) rfl
  (by intro m hm; simp only [List.mem_cons, List.not_mem_nil, or_false] at hm
      rcases hm with rfl | rfl <;> exact ⟨shape_const _ _ _, numMat_const _ _ _⟩)
  (by intro m hm; rw [(List.mem_replicate.mp hm).2]; exact ⟨shape_const _ _ _, numMat_const _ _ _⟩)

/-- three scans at different places -/
example := C16_modis5kmto1km_partial (fun _ => linSeg) (fun _ _ _ => rfl) splNum_linSeg
  [List.replicate 2 (List.replicate 271 (val 10)), List.replicate 2 (List.replicate 271 (val 11)),
    List.replicate 2 (List.replicate 271 (val 12))] (List.replicate 3 (List.replicate 2 (List.replicate 271 (val 60))))
  (List.cons_ne_nil _ _) rfl
  (by intro m hm; simp only [List.mem_cons, List.not_mem_nil, or_false] at hm
      rcases hm with rfl | rfl | rfl <;> exact ⟨shape_const _ _ _, numMat_const _ _ _⟩)
  (by intro m hm; rw [(List.mem_replicate.mp hm).2]; exact ⟨shape_const _ _ _, numMat_const _ _ _⟩)

/-! ### C17 -/

theorem preset_append {G : ScanGrid ℝ} {S : SplLib (FP ℝ)} {F} (hF : IsPreset G S F)
    (hS1 : ∀ xs ys x, S 1 xs ys x = linSeg xs ys x) (hS3 : SplNum S) {a b : Nat} (ha : 1 ≤ a) (hb : 1 ≤ b)
    {lo1 la1 lo2 la2 : Mat (FP ℝ)} (h1 : Shape (a * G.t) G.n lo1 ∧ NumMat lo1) (h2 : Shape (a * G.t) G.n la1 ∧ NumMat la1)
    (h3 : Shape (b * G.t) G.n lo2 ∧ NumMat lo2) (h4 : Shape (b * G.t) G.n la2 ∧ NumMat la2) :
    ∃ r1 r2, F lo1 la1 = .ok r1 ∧ F lo2 la2 = .ok r2 ∧ F (lo1 ++ lo2) (la1 ++ la2) = .ok (r1.1 ++ r2.1, r1.2 ++ r2.2) := by
  have dec : ∀ (c : Nat) (m : Mat (FP ℝ)), Shape (c * G.t) G.n m ∧ NumMat m → ∃ scs : List (Mat (FP ℝ)), scs.length = c ∧
      scs.flatten = m ∧ ∀ x ∈ scs, Shape G.t G.n x ∧ NumMat x := by
    intro c m hm
    obtain ⟨scs, e1, e2, e3⟩ := exists_scans G.t c m hm.1.1
    refine ⟨scs, e1, e3, ?_⟩
    intro x hx
    have : ∀ r ∈ x, r ∈ m := fun r hr => by rw [← e3]; exact List.mem_flatten.mpr ⟨x, hx, hr⟩
    exact ⟨⟨e2 x hx, fun r hr => hm.1.2 r (this r hr)⟩, fun r hr => hm.2 r (this r hr)⟩
  obtain ⟨A, A1, rfl, A3⟩ := dec a lo1 h1
  obtain ⟨A', B1, rfl, B3⟩ := dec a la1 h2
  obtain ⟨C, C1, rfl, C3⟩ := dec b lo2 h3
  obtain ⟨C', D1, rfl, D3⟩ := dec b la2 h4
  have ne : ∀ (l : List (Mat (FP ℝ))) c, l.length = c → 1 ≤ c → l ≠ [] := by
    rintro l c hl hc rfl
    simp at hl; omega
  obtain ⟨r1, p1, q1⟩ := preset_local hF hS1 hS3 A A' (ne _ _ A1 ha) (by omega) A3 B3
  obtain ⟨r2, p2, q2⟩ := preset_local hF hS1 hS3 C C' (ne _ _ C1 hb) (by omega) C3 D3
  obtain ⟨r3, p3, q3⟩ := preset_local hF hS1 hS3 (A ++ C) (A' ++ C') (ne _ _ (List.length_append) (by omega))
    (by simp only [List.length_append]; omega) (by
      intro m hm
      rcases List.mem_append.mp hm with h | h
      · exact A3 m h
      · exact C3 m h) (by
      intro m hm
      rcases List.mem_append.mp hm with h | h
      · exact B3 m h
      · exact D3 m h)
  rw [List.zip_append (by omega)] at p3
  have hdet : ∀ (l : List (Mat (FP ℝ) × Mat (FP ℝ))) (u v : List (Mat (FP ℝ) × Mat (FP ℝ))),
      List.Forall₂ (fun p r => F p.1 p.2 = .ok r) l u → List.Forall₂ (fun p r => F p.1 p.2 = .ok r) l v → u = v := by
    intro l u v hu
    induction hu generalizing v with
    | nil => intro hv; cases hv; rfl
    | cons h _ ih =>
      intro hv
      cases hv with
      | cons h' hv' =>
        rw [h] at h'
        injection h' with h'
        rw [h', ih _ hv']
  have e := hdet _ _ _ p3 (List.rel_append p1 p2)
  subst e
  refine ⟨_, _, q1, q2, ?_⟩
  rw [← List.flatten_append, ← List.flatten_append, q3]
  simp

theorem preset_pieces {G : ScanGrid ℝ} {S : SplLib (FP ℝ)} {F} (hF : IsPreset G S F)
    (hS1 : ∀ xs ys x, S 1 xs ys x = linSeg xs ys x) (hS3 : SplNum S) (ps : List (Mat (FP ℝ) × Mat (FP ℝ))) (hne : ps ≠ [])
    (h : ∀ p ∈ ps, ∃ c, 1 ≤ c ∧ (Shape (c * G.t) G.n p.1 ∧ NumMat p.1) ∧ (Shape (c * G.t) G.n p.2 ∧ NumMat p.2)) :
    (∃ c, 1 ≤ c ∧ (Shape (c * G.t) G.n (ps.map (·.1)).flatten ∧ NumMat (ps.map (·.1)).flatten) ∧
      (Shape (c * G.t) G.n (ps.map (·.2)).flatten ∧ NumMat (ps.map (·.2)).flatten)) ∧
    ∃ res, List.Forall₂ (fun p r => F p.1 p.2 = .ok r) ps res ∧
      F (ps.map (·.1)).flatten (ps.map (·.2)).flatten = .ok ((res.map (·.1)).flatten, (res.map (·.2)).flatten) := by
  induction ps with
  | nil => exact absurd rfl hne
  | cons p ps ih =>
    obtain ⟨c, hc, a1, a2⟩ := h p (by simp)
    by_cases hps : ps = []
    · subst hps
      obtain ⟨lo, la, e, _⟩ := preset_shape hF hc a1.1 a2.1
      refine ⟨⟨c, hc, by simpa using a1, by simpa using a2⟩, [(lo, la)], .cons e .nil, ?_⟩
      simp only [List.map_cons, List.map_nil, List.flatten_cons, List.flatten_nil, List.append_nil, e]
    · obtain ⟨⟨d, hd, b1, b2⟩, res, r1, r2⟩ := ih hps (fun q hq => h q (List.mem_cons_of_mem _ hq))
      obtain ⟨x, y, e1, e2, e3⟩ := preset_append hF hS1 hS3 hc hd a1 a2 b1 b2
      rw [r2] at e2
      injection e2 with e2
      subst e2
      have sh : ∀ u v : Mat (FP ℝ), (Shape (c * G.t) G.n u ∧ NumMat u) → (Shape (d * G.t) G.n v ∧ NumMat v) →
          Shape ((c + d) * G.t) G.n (u ++ v) ∧ NumMat (u ++ v) := by
        rintro u v ⟨⟨u1, u2⟩, u3⟩ ⟨⟨v1, v2⟩, v3⟩
        refine ⟨⟨by rw [List.length_append, u1, v1]; ring, ?_⟩, ?_⟩
        · intro r hr
          rcases List.mem_append.mp hr with h | h
          · exact u2 r h
          · exact v2 r h
        · intro r hr
          rcases List.mem_append.mp hr with h | h
          · exact u3 r h
          · exact v3 r h
      refine ⟨⟨c + d, by omega, sh _ _ a1 b1, sh _ _ a2 b2⟩, x :: res, .cons e1 r1, ?_⟩
      simp only [List.map_cons, List.flatten_cons]
      exact e3

theorem preset_multi {G : ScanGrid ℝ} {S : SplLib (FP ℝ)} {F} (hF : IsPreset G S F)
    (hS1 : ∀ xs ys x, S 1 xs ys x = linSeg xs ys x) (hS3 : SplNum S) {s cores : Nat} (hs : 1 ≤ s)
    (hc : 1 ≤ cores) {lons lats : Mat (FP ℝ)} (h1 : Shape (s * G.t) G.n lons ∧ NumMat lons)
    (h2 : Shape (s * G.t) G.n lats ∧ NumMat lats)
    {splits : List Nat} (h : sceneSplits (List.length lons) G.t cores = .ok splits) {sched : List Nat}
    (hp : sched.Perm (List.range (splits.length + 1))) :
    multi F lons lats G.t cores sched = F lons lats := by
  obtain ⟨f1, f2, hw, m1, m2, hne⟩ := pieces_whole (by have := G.ht; omega) hs hc h1.1.1 h2.1.1 h
  obtain ⟨_, res, r1, r2⟩ := preset_pieces hF hS1 hS3 (piecesOf lons lats splits) hne (by
    intro p hp'
    obtain ⟨c, c1, c2, c3⟩ := hw p hp'
    obtain ⟨u, v⟩ := List.of_mem_zip (show (p.1, p.2) ∈ (vsplit lons splits).zip (vsplit lats splits) from hp')
    exact ⟨c, c1, ⟨⟨c2, fun r hr => h1.1.2 r (vsplit_mem u hr)⟩, fun r hr => h1.2 r (vsplit_mem u hr)⟩,
      ⟨⟨c3, fun r hr => h2.1.2 r (vsplit_mem v hr)⟩, fun r hr => h2.2 r (vsplit_mem v hr)⟩⟩)
  rw [m1, m2, f1, f2] at r2
  rw [r2]
  exact (C19_any_schedule F lons lats G.t cores splits h sched (by rw [vsplit_length]; exact hp)).1 res r1

/-- **C17 (1 km to 500 m, partial)**: any number of cores, any positive number of whole scans of numbers, any order in
which the workers finish: the result is the single-core result.  Missing part of C17: contents that are not numbers. -/
theorem C17_modis1kmto500m_partial (S : SplLib (FP ℝ)) (hS1 : ∀ xs ys x, S 1 xs ys x = linSeg xs ys x) (hS3 : SplNum S)
    (s : Nat) (hs : 1 ≤ s) (lons lats : Mat (FP ℝ)) (h1 : Shape (10 * s) 1354 lons ∧ NumMat lons)
    (h2 : Shape (10 * s) 1354 lats ∧ NumMat lats) (cores : Nat) (hc : 1 < cores) (sched splits : List Nat)
    (hsp : sceneSplits (10 * s) 10 cores = .ok splits) (hp : sched.Perm (List.range (splits.length + 1))) :
    modis1kmto500m S lons lats cores sched = modis1kmto500m S lons lats 1 [] := by
  rw [← h1.1.1] at hsp
  rw [Nat.mul_comm 10 s] at h1 h2
  have := preset_multi (isPreset500 S) hS1 hS3 hs (by omega) h1 h2 hsp hp
  unfold modis1kmto500m
  rw [if_pos hc, if_neg (by omega)]
  exact this

/-- **C17 (1 km to 250 m, partial)** -/
theorem C17_modis1kmto250m_partial (S : SplLib (FP ℝ)) (hS1 : ∀ xs ys x, S 1 xs ys x = linSeg xs ys x) (hS3 : SplNum S)
    (s : Nat) (hs : 1 ≤ s) (lons lats : Mat (FP ℝ)) (h1 : Shape (10 * s) 1354 lons ∧ NumMat lons)
    (h2 : Shape (10 * s) 1354 lats ∧ NumMat lats) (cores : Nat) (hc : 1 < cores) (sched splits : List Nat)
    (hsp : sceneSplits (10 * s) 10 cores = .ok splits) (hp : sched.Perm (List.range (splits.length + 1))) :
    modis1kmto250m S lons lats cores sched = modis1kmto250m S lons lats 1 [] := by
  rw [← h1.1.1] at hsp
  rw [Nat.mul_comm 10 s] at h1 h2
  have := preset_multi (isPreset250 S) hS1 hS3 hs (by omega) h1 h2 hsp hp
  unfold modis1kmto250m
  rw [if_pos hc, if_neg (by omega)]
  exact this

example := C17_modis1kmto500m_partial (fun _ => linSeg) (fun _ _ _ => rfl) splNum_linSeg 7 (by norm_num) _ _
  ⟨shape_const 70 1354 (val 10), numMat_const _ _ _⟩ ⟨shape_const 70 1354 (val 60), numMat_const _ _ _⟩ 3 (by norm_num)
  [3, 1, 0, 2] [20, 40, 60] (by decide) (by decide)

example := C17_modis1kmto250m_partial (fun _ => linSeg) (fun _ _ _ => rfl) splNum_linSeg 7 (by norm_num) _ _
  ⟨shape_const 70 1354 (val 10), numMat_const _ _ _⟩ ⟨shape_const 70 1354 (val 60), numMat_const _ _ _⟩ 3 (by norm_num)
  [3, 1, 0, 2] [20, 40, 60] (by decide) (by decide)

end Verif.Props
