import Verif.Proofs.PresetsScan
import Verif.Proofs.Geo
import Verif.Props.Multi

/-!
# The MODIS presets are grids of whole scans
-/

set_option linter.unusedSectionVars false

namespace Verif.Presets
open Verif Verif.Interpolator Verif.Spec Verif.Props Verif.Multi FP

/-! ### stacking -/

theorem zipWith_flatten {β γ δ : Type} (f : β → γ → δ) {A : List (List β)} {B : List (List γ)}
    (h : List.Forall₂ (fun a b => a.length = b.length) A B) :
    List.zipWith f A.flatten B.flatten = (List.zipWith (List.zipWith f) A B).flatten := by
  induction h with
  | nil => rfl
  | cons h _ ih =>
    simp only [List.flatten_cons, List.zipWith_cons_cons]
    rw [List.zipWith_append h, ih]

theorem exists_scans {β : Type} (t : Nat) (s : Nat) (l : List β) (h : l.length = s * t) :
    ∃ scs : List (List β), scs.length = s ∧ (∀ m ∈ scs, m.length = t) ∧ scs.flatten = l := by
  induction s generalizing l with
  | zero => exact ⟨[], rfl, by simp, by simpa using (List.length_eq_zero_iff.mp (by simpa using h)).symm⟩
  | succ s ih =>
    rw [Nat.add_mul, Nat.one_mul] at h
    obtain ⟨scs, h1, h2, h3⟩ := ih (l.drop t) (by rw [List.length_drop]; omega)
    refine ⟨l.take t :: scs, by simp [h1], ?_, by simp [h3]⟩
    intro m hm
    rcases List.mem_cons.mp hm with rfl | hm
    · rw [List.length_take]; omega
    · exact h2 m hm

variable {α : Type} [Trig α]

/-- the three arrays of tie data, scan by scan -/
def tieScans (lonS latS : List (Mat α)) : List (List (Mat α)) :=
  let f (g : α × α × α → α) : List (Mat α) := List.zipWith (fun lo la =>
    List.zipWith (List.zipWith (fun lon lat => g (Geo.lonlat2xyz Geo.earthRadius lon lat))) lo la) lonS latS
  [f (·.1), f (·.2.1), f (·.2.2)]

/-- two lists of scans of the same shape -/
def SameShape (t n : Nat) (lonS latS : List (Mat α)) : Prop :=
  lonS.length = latS.length ∧ (∀ m ∈ lonS ++ latS, m.length = t) ∧ ∀ m ∈ lonS ++ latS, ∀ r ∈ m, r.length = n

theorem forall₂_of_length {β γ : Type} {P : β → γ → Prop} {A : List β} {B : List γ} (hl : A.length = B.length)
    (h : ∀ a ∈ A, ∀ b ∈ B, P a b) : List.Forall₂ P A B := by
  induction A generalizing B with
  | nil =>
    have : B = [] := List.length_eq_zero_iff.mp hl.symm
    subst this; exact .nil
  | cons a A ih =>
    match B, hl with
    | b :: B, hl =>
      exact .cons (h a (by simp) b (by simp)) (ih (by simpa using hl)
        (fun a' ha b' hb => h a' (List.mem_cons_of_mem _ ha) b' (List.mem_cons_of_mem _ hb)))

omit [Trig α] in
theorem forall₂_mem {β γ : Type} {P Q : β → γ → Prop} {A : List β} {B : List γ} (h : List.Forall₂ P A B)
    (hq : ∀ a ∈ A, ∀ b, P a b → Q a b) : List.Forall₂ Q A B := by
  induction h with
  | nil => exact .nil
  | cons h _ ih =>
    exact .cons (hq _ (by simp) _ h) (ih (fun a ha => hq a (List.mem_cons_of_mem _ ha)))

theorem geoTies_flatten {t n : Nat} {lonS latS : List (Mat α)} (h : SameShape t n lonS latS) :
    geoTies lonS.flatten latS.flatten = (tieScans lonS latS).map List.flatten := by
  have hf : List.Forall₂ (fun a b => List.length a = List.length b) lonS latS := forall₂_of_length h.1 (fun a ha b hb => by
    rw [h.2.1 a (List.mem_append_left _ ha), h.2.1 b (List.mem_append_right _ hb)])
  unfold geoTies tieScans
  simp only [zipWith_flatten _ hf, List.map_cons, List.map_nil]

theorem tieScans_shape {t n : Nat} {lonS latS : List (Mat α)} (h : SameShape t n lonS latS) :
    (∀ scs ∈ tieScans lonS latS, scs.length = lonS.length) ∧ (∀ scs ∈ tieScans lonS latS, ∀ m ∈ scs, m.length = t) ∧
      ∀ scs ∈ tieScans lonS latS, ∀ m ∈ scs, ∀ r ∈ m, r.length = n := by
  obtain ⟨h1, h2, h3⟩ := h
  have key : ∀ g : α × α × α → α, ∀ scs, scs = List.zipWith (fun lo la =>
      List.zipWith (List.zipWith (fun lon lat => g (Geo.lonlat2xyz Geo.earthRadius lon lat))) lo la) lonS latS →
      scs.length = lonS.length ∧ (∀ m ∈ scs, m.length = t) ∧ ∀ m ∈ scs, ∀ r ∈ m, r.length = n := by
    rintro g scs rfl
    refine ⟨by simp [h1], ?_, ?_⟩
    · intro m hm
      obtain ⟨a, ha, b, hb, rfl⟩ := mem_zipWith hm
      have := h2 a (List.mem_append_left _ ha)
      have := h2 b (List.mem_append_right _ hb)
      rw [List.length_zipWith]; omega
    · intro m hm r hr
      obtain ⟨a, ha, b, hb, rfl⟩ := mem_zipWith hm
      obtain ⟨ra, hra, rb, hrb, rfl⟩ := mem_zipWith hr
      have := h3 a (List.mem_append_left _ ha) ra hra
      have := h3 b (List.mem_append_right _ hb) rb hrb
      rw [List.length_zipWith]; omega
  have hall : ∀ scs ∈ tieScans lonS latS, scs.length = lonS.length ∧ (∀ m ∈ scs, m.length = t) ∧
      ∀ m ∈ scs, ∀ r ∈ m, r.length = n := by
    intro scs hs
    unfold tieScans at hs
    simp only [List.mem_cons, List.not_mem_nil, or_false] at hs
    rcases hs with h | h | h
    · exact key (·.1) _ h
    · exact key (·.2.1) _ h
    · exact key (·.2.2) _ h
  exact ⟨fun s hs => (hall s hs).1, fun s hs => (hall s hs).2.1, fun s hs => (hall s hs).2.2⟩

/-! ### the conversion back -/

theorem toLonLat_shape {a b : Nat} {out : List (Mat α)} (h3 : out.length = 3) (hl : ∀ d ∈ out, d.length = a)
    (hw : ∀ d ∈ out, ∀ r ∈ d, r.length = b) :
    ∃ lo la, toLonLat out = .ok (lo, la) ∧ lo.length = a ∧ la.length = a ∧ (∀ r ∈ lo, r.length = b) ∧
      ∀ r ∈ la, r.length = b := by
  match out, h3 with
  | [x, y, z], _ =>
    have hx := hl x (by simp)
    have hy := hl y (by simp)
    have hz := hl z (by simp)
    have wx := hw x (by simp)
    have wy := hw y (by simp)
    have wz := hw z (by simp)
    refine ⟨_, _, rfl, by simp [hx, hy, hz], by simp [hx, hy, hz], ?_, ?_⟩ <;>
    · intro r hr
      obtain ⟨p, hp, q, hq, rfl⟩ := mem_zipWith hr
      obtain ⟨q1, hq1, q2, hq2, rfl⟩ := mem_zipWith hq
      rw [List.length_zipWith, List.length_zip, wx p hp, wy q1 hq1, wz q2 hq2]
      omega

omit [Trig α] in
theorem zip3 {a b c d e : Type} (f : a → d → e) (g : b → c → d) (X : List a) (Y : List b) (Z : List c) :
    List.zipWith f X (List.zipWith g Y Z) = (X.zip (Y.zip Z)).map (fun p => f p.1 (g p.2.1 p.2.2)) := by
  induction X generalizing Y Z with
  | nil => simp
  | cons x X ih =>
    cases Y with
    | nil => simp
    | cons y Y =>
      cases Z with
      | nil => simp
      | cons z Z => simp [ih]

/-- three arrays of scans: the conversion acts scan by scan -/
theorem toLonLat_flatten {a : Nat} (X Y Z : List (Mat α)) (hXY : X.length = Y.length) (hYZ : Y.length = Z.length)
    (hX : ∀ m ∈ X, m.length = a) (hY : ∀ m ∈ Y, m.length = a) (hZ : ∀ m ∈ Z, m.length = a) :
    ∃ res : List (Mat α × Mat α),
      List.Forall₂ (fun (p : Mat α × Mat α × Mat α) r => toLonLat [p.1, p.2.1, p.2.2] = .ok r) (X.zip (Y.zip Z)) res ∧
      toLonLat [X.flatten, Y.flatten, Z.flatten] = .ok ((res.map (·.1)).flatten, (res.map (·.2)).flatten) := by
  let F (g : α × α → α) (x y z : Mat α) : Mat α :=
    List.zipWith (fun rx r => List.zipWith (fun a b => g (Geo.xyz2lonlat Geo.earthRadius
      Geo.defaultThr true (a, b))) rx r) x (List.zipWith List.zip y z)
  refine ⟨(X.zip (Y.zip Z)).map (fun p => (F (·.1) p.1 p.2.1 p.2.2, F (·.2) p.1 p.2.1 p.2.2)), ?_, ?_⟩
  · rw [List.forall₂_map_right_iff]
    exact List.forall₂_same.mpr (fun p _ => rfl)
  · have hf : ∀ g, F g X.flatten Y.flatten Z.flatten = ((X.zip (Y.zip Z)).map (fun p => F g p.1 p.2.1 p.2.2)).flatten := by
      intro g
      show List.zipWith _ X.flatten (List.zipWith List.zip Y.flatten Z.flatten) = _
      rw [zipWith_flatten _ (forall₂_of_length hYZ (fun u hu v hv => by rw [hY u hu, hZ v hv])),
        zipWith_flatten _ (forall₂_of_length (by simp [hXY, hYZ]) (fun u hu v hv => by
          obtain ⟨p, hp, q, hq, rfl⟩ := mem_zipWith hv
          rw [hX u hu, List.length_zipWith, hY p hp, hZ q hq, Nat.min_self]))]
      congr 1
      rw [zip3]
    show Except.ok (F (·.1) X.flatten Y.flatten Z.flatten, F (·.2) X.flatten Y.flatten Z.flatten) = _
    rw [hf, hf, List.map_map, List.map_map]
    rfl

/-! ### a grid of scans with geographic data -/

variable (G : ScanGrid ℝ)

theorem geo_state {s : Nat} (hs : 1 ≤ s) (S : SplLib (FP ℝ)) {lonS latS : List (Mat (FP ℝ))} (hl : lonS.length = s)
    (h : SameShape G.t G.n lonS latS) :
    geoInterpXyz S ["y", "x"] (G.state s (geoTies lonS.flatten latS.flatten))
      = toLonLat ((tieScans lonS latS).map (fun scs => rectVal S (G.filled s (tieScans lonS latS))
          (scs.flatMap (fun m => (G.scanFill m).map G.colFill)))) := by
  obtain ⟨h1, h2, h3⟩ := tieScans_shape h
  rw [hl] at h1
  unfold geoInterpXyz
  rw [geoTies_flatten h, fill_state G hs _ h1 h2 h3]
  simp only
  rw [interpolate_filled G S hs _ h1 h2 h3]
  simp only [ScanGrid.filled, List.map_map]
  rfl

/-- the shape of the result, for any content and any spline library -/
theorem geo_shape {s : Nat} (hs : 1 ≤ s) (S : SplLib (FP ℝ)) {lons lats : Mat (FP ℝ)} (h1 : lons.length = s * G.t)
    (h2 : lats.length = s * G.t) (h3 : ∀ r ∈ lons, r.length = G.n) (h4 : ∀ r ∈ lats, r.length = G.n) :
    ∃ lo la, geoInterpXyz S ["y", "x"] (G.state s (geoTies lons lats)) = .ok (lo, la) ∧
      lo.length = s * G.k ∧ la.length = s * G.k ∧ (∀ r ∈ lo, r.length = G.N) ∧ ∀ r ∈ la, r.length = G.N := by
  obtain ⟨lonS, a1, a2, rfl⟩ := exists_scans G.t s lons h1
  obtain ⟨latS, b1, b2, rfl⟩ := exists_scans G.t s lats h2
  rw [geo_state G hs S a1 ⟨by rw [a1, b1], by
      intro m hm
      rcases List.mem_append.mp hm with hm | hm
      · exact a2 m hm
      · exact b2 m hm, by
      intro m hm r hr
      rcases List.mem_append.mp hm with hm | hm
      · exact h3 r (List.mem_flatten.mpr ⟨m, hm, hr⟩)
      · exact h4 r (List.mem_flatten.mpr ⟨m, hm, hr⟩)⟩]
  refine toLonLat_shape (by simp [tieScans]) ?_ ?_
  · intro d hd
    obtain ⟨scs, _, rfl⟩ := List.mem_map.mp hd
    simp [rectVal, ScanGrid.filled, ScanGrid.state, poss]
  · intro d hd r hr
    obtain ⟨scs, _, rfl⟩ := List.mem_map.mp hd
    obtain ⟨x, _, rfl⟩ := List.mem_map.mp hr
    simp [ScanGrid.filled, ScanGrid.state, poss]

theorem lonlat2xyz_num {lon lat : FP ℝ} (h1 : IsNum lon) (h2 : IsNum lat) :
    IsNum (Geo.lonlat2xyz Geo.earthRadius lon lat).1 ∧ IsNum (Geo.lonlat2xyz Geo.earthRadius lon lat).2.1 ∧
      IsNum (Geo.lonlat2xyz Geo.earthRadius lon lat).2.2 := by
  obtain ⟨a, rfl⟩ := h1
  obtain ⟨b, rfl⟩ := h2
  simp [Geo.lonlat2xyz, Geo.earthRadius]

theorem tieScans_num {lonS latS : List (Mat (FP ℝ))} (h1 : ∀ m ∈ lonS, NumMat m) (h2 : ∀ m ∈ latS, NumMat m) :
    ∀ scs ∈ tieScans lonS latS, ∀ m ∈ scs, NumMat m := by
  intro scs hs m hm r hr v hv
  unfold tieScans at hs
  simp only [List.mem_cons, List.not_mem_nil, or_false] at hs
  rcases hs with rfl | rfl | rfl <;>
  · obtain ⟨a, ha, b, hb, rfl⟩ := mem_zipWith hm
    obtain ⟨ra, hra, rb, hrb, rfl⟩ := mem_zipWith hr
    obtain ⟨x, hx, y, hy, rfl⟩ := mem_zipWith hv
    have := lonlat2xyz_num (h1 a ha ra hra x hx) (h2 b hb rb hrb y hy)
    first
      | exact this.1
      | exact this.2.1
      | exact this.2.2

/-- what a preset computes from scans of numbers -/
theorem geo_core (S : SplLib (FP ℝ)) (hS1 : ∀ xs ys x, S 1 xs ys x = linSeg xs ys x) (hS3 : SplNum S) (s : Nat)
    (lonS latS : List (Mat (FP ℝ))) (hs : 1 ≤ s) (hl : lonS.length = s) (h : SameShape G.t G.n lonS latS)
    (hn1 : ∀ m ∈ lonS, NumMat m) (hn2 : ∀ m ∈ latS, NumMat m) :
    geoInterpXyz S ["y", "x"] (G.state s (geoTies lonS.flatten latS.flatten))
      = toLonLat ((tieScans lonS latS).map (fun scs => scs.flatMap (G.scanOut S))) := by
  obtain ⟨h1, h2, h3⟩ := tieScans_shape h
  rw [geo_state G hs S hl h]
  congr 1
  refine List.map_congr_left (fun scs hscs => ?_)
  exact rectVal_scans G S hS1 hS3 _ scs (by rw [h1 scs hscs, hl]) (h2 scs hscs) (h3 scs hscs)
    (tieScans_num hn1 hn2 scs hscs)

/-- stacked scans give the stacked results of the single scans -/
theorem geo_local {s : Nat} (hs : 1 ≤ s) (S : SplLib (FP ℝ)) (hS1 : ∀ xs ys x, S 1 xs ys x = linSeg xs ys x)
    (hS3 : SplNum S) {lonS latS : List (Mat (FP ℝ))} (hl : lonS.length = s) (h : SameShape G.t G.n lonS latS)
    (hn1 : ∀ m ∈ lonS, NumMat m) (hn2 : ∀ m ∈ latS, NumMat m) :
    ∃ res, List.Forall₂ (fun (p : Mat (FP ℝ) × Mat (FP ℝ)) r =>
        geoInterpXyz S ["y", "x"] (G.state 1 (geoTies p.1 p.2)) = .ok r) (lonS.zip latS) res ∧
      geoInterpXyz S ["y", "x"] (G.state s (geoTies lonS.flatten latS.flatten))
        = .ok ((res.map (·.1)).flatten, (res.map (·.2)).flatten) := by
  have core := geo_core G S hS1 hS3
  rw [core s lonS latS hs hl h hn1 hn2]
  have hso : ∀ m : Mat (FP ℝ), (G.scanOut S m).length = G.k := by intro m; simp [ScanGrid.scanOut, poss]
  let T (g : FP ℝ × FP ℝ × FP ℝ → FP ℝ) (lo la : Mat (FP ℝ)) : Mat (FP ℝ) :=
    List.zipWith (List.zipWith (fun lon lat => g (Geo.lonlat2xyz Geo.earthRadius lon lat))) lo la
  have hT : tieScans lonS latS = [List.zipWith (T (·.1)) lonS latS, List.zipWith (T (·.2.1)) lonS latS,
    List.zipWith (T (·.2.2)) lonS latS] := rfl
  have hlen := h.1
  obtain ⟨res, r1, r2⟩ := toLonLat_flatten (a := G.k)
    ((List.zipWith (T (·.1)) lonS latS).map (G.scanOut S)) ((List.zipWith (T (·.2.1)) lonS latS).map (G.scanOut S))
    ((List.zipWith (T (·.2.2)) lonS latS).map (G.scanOut S)) (by simp) (by simp)
    (by intro m hm; obtain ⟨m', _, rfl⟩ := List.mem_map.mp hm; exact hso m')
    (by intro m hm; obtain ⟨m', _, rfl⟩ := List.mem_map.mp hm; exact hso m')
    (by intro m hm; obtain ⟨m', _, rfl⟩ := List.mem_map.mp hm; exact hso m')
  refine ⟨res, ?_, by rw [hT]; exact r2⟩
  have hz : ((List.zipWith (T (·.1)) lonS latS).map (G.scanOut S)).zip
      (((List.zipWith (T (·.2.1)) lonS latS).map (G.scanOut S)).zip
        ((List.zipWith (T (·.2.2)) lonS latS).map (G.scanOut S)))
      = (lonS.zip latS).map (fun p => (G.scanOut S (T (·.1) p.1 p.2), G.scanOut S (T (·.2.1) p.1 p.2),
          G.scanOut S (T (·.2.2) p.1 p.2))) := by
    generalize lonS = A
    generalize latS = B
    induction A generalizing B with
    | nil => simp
    | cons a A ih =>
      cases B with
      | nil => simp
      | cons b B =>
        have := ih B
        simp only [List.zipWith_cons_cons, List.map_cons, List.zip_cons_cons, this]
  rw [hz, List.forall₂_map_left_iff] at r1
  refine forall₂_mem r1 ?_
  rintro ⟨lo, la⟩ hp r hr
  obtain ⟨m1, m2⟩ := List.of_mem_zip hp
  have := core 1 [lo] [la] (le_refl _) rfl ⟨rfl, by
      intro m hm
      rcases List.mem_append.mp hm with hm | hm
      · rw [List.mem_singleton.mp hm]; exact h.2.1 _ (List.mem_append_left _ m1)
      · rw [List.mem_singleton.mp hm]; exact h.2.1 _ (List.mem_append_right _ m2), by
      intro m hm
      rcases List.mem_append.mp hm with hm | hm
      · rw [List.mem_singleton.mp hm]; exact h.2.2 _ (List.mem_append_left _ m1)
      · rw [List.mem_singleton.mp hm]; exact h.2.2 _ (List.mem_append_right _ m2)⟩
    (by intro m hm; rw [List.mem_singleton.mp hm]; exact hn1 _ m1)
    (by intro m hm; rw [List.mem_singleton.mp hm]; exact hn2 _ m2)
  have e : ∀ m : Mat (FP ℝ), [m].flatten = m := fun m => by simp
  rw [e, e] at this
  rw [this, ← hr]
  have e' : ∀ m : Mat (FP ℝ), [m].flatMap (G.scanOut S) = G.scanOut S m := fun m => by simp
  show toLonLat [[T (·.1) lo la].flatMap (G.scanOut S), [T (·.2.1) lo la].flatMap (G.scanOut S),
    [T (·.2.2) lo la].flatMap (G.scanOut S)] = _
  rw [e', e', e']

/-! ### the three presets -/

/-- 5 km to 1 km -/
noncomputable def grid5 : ScanGrid ℝ where
  t := 2
  k := 10
  n := 271
  N := 1354
  p i := (2 + i * 5) / 5
  h a := a / 5
  q i := (2 + i * 5) / 5
  g j := j / 5
  ht := by norm_num
  hk := by norm_num
  hkt := by norm_num
  hp i := by constructor <;> linarith
  hps c j := by push_cast; ring
  hhs c a := by push_cast; ring
  hhm a b h := by
    have : (a : ℝ) < b := by exact_mod_cast h
    linarith
  hfirst := by norm_num
  hlast := by norm_num
  hn := by norm_num
  hN := by norm_num
  hqm a b h := by
    have : (a : ℝ) < b := by exact_mod_cast h
    linarith
  hgm a b h := by
    have : (a : ℝ) < b := by exact_mod_cast h
    linarith
  hq0 := by norm_num
  hq1 := by norm_num

/-- 1 km to 500 m -/
noncomputable def grid500 : ScanGrid ℝ where
  t := 10
  k := 20
  n := 1354
  N := 2708
  p i := i
  h a := (a - 1 / 2) / 2
  q i := i
  g j := j / 2
  ht := by norm_num
  hk := by norm_num
  hkt := by norm_num
  hp i := by constructor <;> linarith
  hps c j := by push_cast; ring
  hhs c a := by push_cast; ring
  hhm a b h := by
    have : (a : ℝ) < b := by exact_mod_cast h
    linarith
  hfirst := by norm_num
  hlast := by norm_num
  hn := by norm_num
  hN := by norm_num
  hqm a b h := by exact_mod_cast h
  hgm a b h := by
    have : (a : ℝ) < b := by exact_mod_cast h
    linarith
  hq0 := by norm_num
  hq1 := by norm_num

/-- 1 km to 250 m -/
noncomputable def grid250 : ScanGrid ℝ where
  t := 10
  k := 40
  n := 1354
  N := 5416
  p i := i
  h a := (a - 3 / 2) / 4
  q i := i
  g j := j / 4
  ht := by norm_num
  hk := by norm_num
  hkt := by norm_num
  hp i := by constructor <;> linarith
  hps c j := by push_cast; ring
  hhs c a := by push_cast; ring
  hhm a b h := by
    have : (a : ℝ) < b := by exact_mod_cast h
    linarith
  hfirst := by norm_num
  hlast := by norm_num
  hn := by norm_num
  hN := by norm_num
  hqm a b h := by exact_mod_cast h
  hgm a b h := by
    have : (a : ℝ) < b := by exact_mod_cast h
    linarith
  hq0 := by norm_num
  hq1 := by norm_num

theorem arange_unit (n : Nat) : (arange 0 n 1 : List (FP ℝ)) = (poss (fun i => (i : ℝ)) n).map val := by
  unfold arange pyRange poss
  rw [List.map_map, List.map_map]
  simp

theorem arange_five {m n : Nat} (h : (m - 2 + 5 - 1) / 5 = n) :
    (arange 2 m 5 : List (FP ℝ)) = (poss (fun i => (2 + (i : ℝ) * 5)) n).map val := by
  unfold arange pyRange poss
  rw [h, List.map_map, List.map_map]
  simp

theorem modis5_eq (S : SplLib (FP ℝ)) {s : Nat} (hs : 1 ≤ s) {lons lats : Mat (FP ℝ)} (h : lons.length = s * 2) :
    modis5kmto1km S lons lats = geoInterpXyz S ["y", "x"] (grid5.state s (geoTies lons lats)) := by
  unfold modis5kmto1km
  simp only [h]
  congr 1
  have h5 : ((50 : Nat) : ℝ) / 10 ^ 1 = 5 := by norm_num
  have hd : ∀ (f : Nat → ℝ) n, ((poss f n).map (val : ℝ → FP ℝ)).map (· / Arith.lit 50 1)
      = (poss (fun i => f i / 5) n).map val := by
    intro f n
    unfold poss
    rw [List.map_map, List.map_map, List.map_map]
    refine List.map_congr_left (fun i _ => ?_)
    simp only [Function.comp, lit_eq, h5]
    rw [val_div_of_ne _ (by norm_num)]
  rw [arange_five (m := 1354) (n := 271) (by norm_num), arange_five (n := s * 2) (by omega), arange_unit, arange_unit, hd, hd, hd, hd]
  rw [show s * 2 * 5 = s * 10 by ring]
  rfl

theorem modis500_eq (S : SplLib (FP ℝ)) {s : Nat} {lons lats : Mat (FP ℝ)} (h : lons.length = s * 10) :
    modis1kmto500mSingle S lons lats = geoInterpXyz S ["y", "x"] (grid500.state s (geoTies lons lats)) := by
  unfold modis1kmto500mSingle
  simp only [h]
  congr 1
  have h2 : ((20 : Nat) : ℝ) / 10 ^ 1 = 2 := by norm_num
  have h3 : ((5 : Nat) : ℝ) / 10 ^ 1 = 1 / 2 := by norm_num
  rw [arange_unit, arange_unit, arange_unit, arange_unit]
  have hd : ∀ (f : Nat → ℝ) n, ((poss f n).map (val : ℝ → FP ℝ)).map (· / Arith.lit 20 1)
      = (poss (fun i => f i / 2) n).map val := by
    intro f n
    unfold poss
    rw [List.map_map, List.map_map, List.map_map]
    refine List.map_congr_left (fun i _ => ?_)
    simp only [Function.comp, lit_eq, h2]
    rw [val_div_of_ne _ (by norm_num)]
  have hd' : ∀ (f : Nat → ℝ) n, ((poss f n).map (val : ℝ → FP ℝ)).map (fun x => (x - Arith.lit 5 1) / Arith.lit 20 1)
      = (poss (fun i => (f i - 1 / 2) / 2) n).map val := by
    intro f n
    unfold poss
    rw [List.map_map, List.map_map, List.map_map]
    refine List.map_congr_left (fun i _ => ?_)
    simp only [Function.comp, lit_eq, h2, h3, val_sub]
    rw [val_div_of_ne _ (by norm_num)]
  rw [hd, hd', show s * 10 * 2 = s * 20 by ring]
  rfl

theorem modis250_eq (S : SplLib (FP ℝ)) {s : Nat} {lons lats : Mat (FP ℝ)} (h : lons.length = s * 10) :
    modis1kmto250mSingle S lons lats = geoInterpXyz S ["y", "x"] (grid250.state s (geoTies lons lats)) := by
  unfold modis1kmto250mSingle
  simp only [h]
  congr 1
  have h2 : ((40 : Nat) : ℝ) / 10 ^ 1 = 4 := by norm_num
  have h3 : ((15 : Nat) : ℝ) / 10 ^ 1 = 3 / 2 := by norm_num
  rw [arange_unit, arange_unit, arange_unit, arange_unit]
  have hd : ∀ (f : Nat → ℝ) n, ((poss f n).map (val : ℝ → FP ℝ)).map (· / Arith.lit 40 1)
      = (poss (fun i => f i / 4) n).map val := by
    intro f n
    unfold poss
    rw [List.map_map, List.map_map, List.map_map]
    refine List.map_congr_left (fun i _ => ?_)
    simp only [Function.comp, lit_eq, h2]
    rw [val_div_of_ne _ (by norm_num)]
  have hd' : ∀ (f : Nat → ℝ) n, ((poss f n).map (val : ℝ → FP ℝ)).map (fun x => (x - Arith.lit 15 1) / Arith.lit 40 1)
      = (poss (fun i => (f i - 3 / 2) / 4) n).map val := by
    intro f n
    unfold poss
    rw [List.map_map, List.map_map, List.map_map]
    refine List.map_congr_left (fun i _ => ?_)
    simp only [Function.comp, lit_eq, h2, h3, val_sub]
    rw [val_div_of_ne _ (by norm_num)]
  rw [hd, hd', show s * 10 * 4 = s * 40 by ring]
  rfl

end Verif.Presets
