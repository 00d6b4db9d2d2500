import Verif.Proofs.Modis

/-!
# The satellite-angle MODIS interpolator on arrays of any shape: where it stays inside its arrays
-/

namespace Verif.Modis
open Verif Verif.Spec.Modis
variable {α : Type}

/-- A loop whose iteration `i` succeeds if `G i` and is undefined behaviour otherwise. -/
theorem loop_dich {σ : Type} {n : Nat} {body : Nat → σ → Except Err σ} {s : σ} (P : σ → Prop) (G : Nat → Prop)
    (h0 : P s) (hok : ∀ i s, i < n → P s → G i → ∃ s', body i s = .ok s' ∧ P s')
    (hbad : ∀ i s, i < n → P s → ¬ G i → body i s = .error .ub) :
    ((∀ i, i < n → G i) → ∃ s', loop n body s = .ok s' ∧ P s') ∧
    (∀ i, i < n → ¬ G i → loop n body s = .error .ub) := by
  refine ⟨fun hG => loop_ok (fun _ => P) h0 (fun i s hi hp => hok i s hi hp (hG i hi)), ?_⟩
  classical
  intro i hi hG
  have hex : ∃ i, i < n ∧ ¬ G i := ⟨i, hi, hG⟩
  refine loop_error (fun _ => P) (Nat.find hex) (Nat.find_spec hex).1 h0 ?_
    (fun s hp => hbad _ s (Nat.find_spec hex).1 hp (Nat.find_spec hex).2)
  intro j s hj hp
  have hjn : j < n := by have := (Nat.find_spec hex).1; omega
  refine hok j s hjn hp ?_
  by_contra hc
  exact Nat.find_min hex hj ⟨hjn, hc⟩

theorem loop2_dich {σ : Type} {n m : Nat} {body : Nat → Nat → σ → Except Err σ} {s : σ} (P : σ → Prop)
    (G : Nat → Nat → Prop) (h0 : P s)
    (hok : ∀ i j s, i < n → j < m → P s → G i j → ∃ s', body i j s = .ok s' ∧ P s')
    (hbad : ∀ i j s, i < n → j < m → P s → ¬ G i j → body i j s = .error .ub) :
    ((∀ i j, i < n → j < m → G i j) → ∃ s', loop2 n m body s = .ok s' ∧ P s') ∧
    (∀ i j, i < n → j < m → ¬ G i j → loop2 n m body s = .error .ub) := by
  have inner : ∀ i s, i < n → P s → _ := fun i s hi hp => loop_dich (n := m) (body := fun j s => body i j s) P (G i) hp
    (fun j s hj hp => hok i j s hi hj hp) (fun j s hj hp => hbad i j s hi hj hp)
  have outer := loop_dich (n := n) (body := fun i s => loop m (fun j s => body i j s) s) (s := s) P
    (fun i => ∀ j, j < m → G i j) h0 (fun i s hi hp => (inner i s hi hp).1) ?_
  · refine ⟨fun hG => outer.1 (fun i hi j hj => hG i j hi hj), fun i j hi hj hG => outer.2 i hi (fun h => hG (h j hj))⟩
  · intro i s hi hp hG
    push Not at hG
    obtain ⟨j, hj, hn⟩ := hG
    exact (inner i s hi hp).2 j hj hn

section
variable [Trig α]

/-- the coordinates are computed in bounds exactly when latitudes and work array are large enough for the longitudes -/
theorem lonlat2xyzArr_dich {lons lats : Arr2 α} {xyz : Arr3 α} {R C : Nat}
    (h : xyz.rows = R ∧ xyz.cols = C ∧ xyz.depth = 3) (hR : lons.rows ≤ R) :
    ((lons.rows = 0 ∨ lons.cols = 0 ∨ (lons.rows ≤ lats.rows ∧ lons.cols ≤ lats.cols ∧ lons.cols ≤ C)) →
      ∃ xyz', lonlat2xyzArr lons lats xyz = .ok xyz' ∧ xyz'.rows = R ∧ xyz'.cols = C ∧ xyz'.depth = 3) ∧
    (¬ (lons.rows = 0 ∨ lons.cols = 0 ∨ (lons.rows ≤ lats.rows ∧ lons.cols ≤ lats.cols ∧ lons.cols ≤ C)) →
      lonlat2xyzArr lons lats xyz = .error .ub) := by
  have key := loop2_dich (n := lons.rows) (m := lons.cols)
    (body := fun i j (xyz : Arr3 α) => do
      let lon ← lons.rd i j
      let lat ← lats.rd i j
      let p := Geo.cyLonlat2xyz Geo.earthRadius lon lat
      let xyz ← xyz.wr i j 0 p.1
      let xyz ← xyz.wr i j 1 p.2.1
      xyz.wr i j 2 p.2.2) (s := xyz)
    (fun x => x.rows = R ∧ x.cols = C ∧ x.depth = 3) (fun i j => i < lats.rows ∧ j < lats.cols ∧ j < C) h
    (fun i j x hi hj ⟨x1, x2, x3⟩ ⟨g1, g2, g3⟩ => by
      rw [rd_bind (by omega) (by omega), rd_bind (by omega) (by omega)]
      obtain ⟨x', e, p⟩ := arr3_wr3 (xyz := x) (R := R) (C := C) (S := fun _ _ _ => False)
        (F := fun _ _ k => comp (Geo.cyLonlat2xyz Geo.earthRadius (lons.cell i j) (lats.cell i j)) k)
        ⟨x1, x2, x3, fun _ _ _ _ _ _ h => h.elim⟩ (i := i) (j := j) (by omega) (by omega) (fun _ _ => rfl)
      exact ⟨x', e, p.rows, p.cols, p.depth⟩)
    (fun i j x hi hj ⟨x1, x2, x3⟩ g => by
      rw [rd_bind (by omega) (by omega)]
      by_cases hl : i < lats.rows ∧ j < lats.cols
      · rw [rd_bind hl.1 hl.2]
        simp only [Arr3.wr, bind, Except.bind]
        rw [if_neg (by omega)]
      · simp only [Arr2.rd_ub hl, bind, Except.bind])
  refine ⟨fun hg => key.1 (fun i j hi hj => by omega), fun hg => ?_⟩
  by_cases h1 : lats.rows < lons.rows
  · exact key.2 lats.rows 0 h1 (by omega) (by omega)
  · by_cases h2 : lats.cols < lons.cols
    · exact key.2 0 lats.cols (by omega) h2 (by omega)
    · exact key.2 0 C (by omega) (by omega) (by omega)

/-- the coefficients are computed in bounds exactly when there are not more columns of angles than the work array has -/
theorem computeExpansionAlignment_dich {satzA satzB : Arr2 α} {sw r c R C : Nat} {o : Arr2 α × Arr2 α}
    (h1 : satzB.rows = satzA.rows) (h2 : satzB.cols = satzA.cols)
    (ho : o.1.rows = R ∧ o.1.cols = C ∧ o.2.rows = R ∧ o.2.cols = C) :
    ((satzA.rows = 0 ∨ satzA.cols = 0 ∨ (satzA.rows ≤ min r R ∧ satzA.cols ≤ min c C)) → ∃ o', computeExpansionAlignment satzA satzB sw r c o = .ok o' ∧
      o'.1.rows = R ∧ o'.1.cols = C ∧ o'.2.rows = R ∧ o'.2.cols = C) ∧
    (¬ (satzA.rows = 0 ∨ satzA.cols = 0 ∨ (satzA.rows ≤ min r R ∧ satzA.cols ≤ min c C)) →
      computeExpansionAlignment satzA satzB sw r c o = .error .ub) := by
  have key := loop2_dich (n := satzA.rows) (m := satzA.cols)
    (body := fun i j (out : Arr2 α × Arr2 α) => do
      let a ← satzA.rd i j
      let b ← satzB.rd i j
      let ea := expansionAlignment sw a b
      let e ← out.1.wrTopLeft r c i j ea.1
      let l ← out.2.wrTopLeft r c i j ea.2
      .ok (e, l)) (s := o)
    (fun o => o.1.rows = R ∧ o.1.cols = C ∧ o.2.rows = R ∧ o.2.cols = C) (fun i j => i < min r R ∧ j < min c C) ho
    (fun i j o hi hj ⟨o1, o2, o3, o4⟩ g => by
      rw [rd_bind (by omega) (by omega), rd_bind (by omega) (by omega)]
      have hw : ∀ (a : Arr2 α) v, a.rows = R → a.cols = C → a.wrTopLeft r c i j v
          = .ok { a with cell := fun i' j' => if i' = i ∧ j' = j then v else a.cell i' j' } := by
        intro a v h1 h2
        rw [Arr2.wrTopLeft, if_pos ⟨by omega, by omega⟩, Arr2.wr, if_pos ⟨by omega, by omega⟩]
      simp only [bind, Except.bind, hw _ _ o1 o2, hw _ _ o3 o4]
      exact ⟨_, rfl, o1, o2, o3, o4⟩)
    (fun i j o hi hj ⟨o1, o2, o3, o4⟩ g => by
      rw [rd_bind (by omega) (by omega), rd_bind (by omega) (by omega)]
      simp only [Arr2.wrTopLeft, bind, Except.bind]
      rw [if_neg (by omega)])
  refine ⟨fun hg => key.1 (fun i j hi hj => by omega), fun hg => ?_⟩
  by_cases h3 : satzA.rows ≤ min r R
  · exact key.2 0 (min c C) (by omega) (by omega) (by omega)
  · exact key.2 (min r R) 0 (by omega) (by omega) (by omega)

theorem getAtrackAscan_dich {cfg : Cfg} (hg : Geometry cfg) {satz : Arr2 α} (hr : satz.rows = cfg.len) {b : Bufs α}
    (hb : Shaped cfg b) :
    (satz.cols ≤ cfg.width → ∃ b', getAtrackAscan cfg satz (getCoords cfg).1 (getCoords cfg).2 b = .ok b' ∧
      Shaped cfg b' ∧ b'.out = b.out) ∧
    (¬ satz.cols ≤ cfg.width → getAtrackAscan cfg satz (getCoords cfg).1 (getCoords cfg).2 b = .error .ub) := by
  obtain ⟨g1, g2, g3, g4, g5⟩ := geom_bounds hg
  have hiff : ((satz.topLeft (satz.rows - 1) (satz.cols - 1)).rows = 0 ∨ (satz.topLeft (satz.rows - 1) (satz.cols - 1)).cols = 0 ∨
      ((satz.topLeft (satz.rows - 1) (satz.cols - 1)).rows ≤ min (cfg.len - 1) (cfg.len * cfg.f) ∧
        (satz.topLeft (satz.rows - 1) (satz.cols - 1)).cols ≤ min (cfg.width - 1) cfg.fineWidth)) ↔ satz.cols ≤ cfg.width := by
    have e1 : (satz.topLeft (satz.rows - 1) (satz.cols - 1)).rows = satz.rows - 1 := Nat.min_eq_left (by omega)
    have e2 : (satz.topLeft (satz.rows - 1) (satz.cols - 1)).cols = satz.cols - 1 := Nat.min_eq_left (by omega)
    rw [e1, e2, Nat.min_eq_left g4, Nat.min_eq_left g3]
    omega
  have key := computeExpansionAlignment_dich (sw := cfg.perKm)
    (satzA := satz.topLeft (satz.rows - 1) (satz.cols - 1))
    (satzB := (satz.topLeft (satz.rows - 1) satz.cols).from_ 0 1)
    (r := cfg.len - 1) (c := cfg.width - 1) (R := cfg.len * cfg.f) (C := cfg.fineWidth) (o := (b.tmpA, b.tmpB))
    (by simp only [Arr2.topLeft, Arr2.from_]; omega) (by simp only [Arr2.topLeft, Arr2.from_]; omega)
    ⟨hb.a.1, hb.a.2, hb.b.1, hb.b.2⟩
  rw [hiff] at key
  constructor
  · intro hw
    obtain ⟨ea, e1, p1, p2, p3, p4⟩ := key.1 hw
    obtain ⟨c', e2, pc⟩ := expand_ok hg (inp := ea.1.topLeft (cfg.len - 1) (cfg.width - 1)) (arr := b.tmpC)
      (by simp only [Arr2.topLeft]; omega) (by simp only [Arr2.topLeft]; omega) hb.c.1 hb.c.2
    obtain ⟨d', e3, pd⟩ := expand_ok hg (inp := ea.2.topLeft (cfg.len - 1) (cfg.width - 1)) (arr := b.tmpD)
      (by simp only [Arr2.topLeft]; omega) (by simp only [Arr2.topLeft]; omega) hb.d.1 hb.d.2
    obtain ⟨ts, e4, pt, ps⟩ := calculateAtrackAscan_ok (cfg := cfg) (x := (getCoords cfg).1)
      (y := (getCoords cfg).2) coords_len.2 coords_len.1 pc pd hb.t.1 hb.t.2 hb.s.1 hb.s.2
    refine ⟨{ b with tmpA := ea.1, tmpB := ea.2, tmpC := c', tmpD := d', aTrack := ts.1, aScan := ts.2 }, ?_, ?_, rfl⟩
    · unfold getAtrackAscan
      simp only [bind, Except.bind, e1, e2, e3, e4]
    · exact ⟨⟨pt.rows, pt.cols⟩, ⟨ps.rows, ps.cols⟩, ⟨p1, p2⟩, ⟨p3, p4⟩, ⟨pc.rows, pc.cols⟩, ⟨pd.rows, pd.cols⟩,
        hb.xc, hb.xf⟩
  · intro hw
    have e := key.2 hw
    unfold getAtrackAscan
    simp only [bind, Except.bind, e]

/-- work arrays and outputs keep their shapes -/
structure ShapedOut (cfg : Cfg) (N : Nat) (b : Bufs α) : Prop where
  bufs : Shaped cfg b
  out : b.out.1.rows = N ∧ b.out.1.cols = cfg.fineWidth ∧ b.out.2.rows = N ∧ b.out.2.cols = cfg.fineWidth

/-- one scan stays in bounds exactly if: not too many columns of angles, and longitudes of the scan (if any) that fit the work array
and the latitudes -/
theorem scanStep_dich {cfg : Cfg} (hg : Geometry cfg) {lon lat satz : Arr2 α} {s : Nat}
    (hs : s < satz.rows / cfg.len) {b : Bufs α} (hb : ShapedOut cfg (satz.rows * cfg.f) b) :
    ((satz.cols ≤ cfg.width ∧ (min ((s + 1) * cfg.len) lon.rows ≤ s * cfg.len ∨ lon.cols = 0 ∨
        (min ((s + 1) * cfg.len) lon.rows ≤ lat.rows ∧ lon.cols ≤ lat.cols ∧ lon.cols ≤ cfg.width))) →
      ∃ b', scanStep cfg lon lat satz (getCoords cfg).1 (getCoords cfg).2 s b = .ok b' ∧
        ShapedOut cfg (satz.rows * cfg.f) b') ∧
    (¬ (satz.cols ≤ cfg.width ∧ (min ((s + 1) * cfg.len) lon.rows ≤ s * cfg.len ∨ lon.cols = 0 ∨
        (min ((s + 1) * cfg.len) lon.rows ≤ lat.rows ∧ lon.cols ≤ lat.cols ∧ lon.cols ≤ cfg.width))) →
      scanStep cfg lon lat satz (getCoords cfg).1 (getCoords cfg).2 s b = .error .ub) := by
  obtain ⟨g1, g2, g3, g4, g5⟩ := geom_bounds hg
  have hsN : (s + 1) * cfg.len ≤ satz.rows :=
    le_trans (Nat.mul_le_mul_right _ hs) (Nat.div_mul_le_self satz.rows cfg.len)
  have hexp : (s + 1) * cfg.len = s * cfg.len + cfg.len := by ring
  have h1 := getAtrackAscan_dich hg (satz := satz.rowSlice (s * cfg.len) ((s + 1) * cfg.len))
    (by simp only [Arr2.rowSlice]; omega) hb.bufs
  have hsc : (satz.rowSlice (s * cfg.len) ((s + 1) * cfg.len)).cols = satz.cols := rfl
  rw [hsc] at h1
  by_cases hw : satz.cols ≤ cfg.width
  · obtain ⟨b1, e1, sh1, ho1⟩ := h1.1 hw
    have h2 := lonlat2xyzArr_dich (lons := lon.rowSlice (s * cfg.len) ((s + 1) * cfg.len))
      (lats := lat.rowSlice (s * cfg.len) ((s + 1) * cfg.len)) sh1.xc (by simp only [Arr2.rowSlice]; omega)
    have hiff : ((lon.rowSlice (s * cfg.len) ((s + 1) * cfg.len)).rows = 0 ∨
        (lon.rowSlice (s * cfg.len) ((s + 1) * cfg.len)).cols = 0 ∨
        ((lon.rowSlice (s * cfg.len) ((s + 1) * cfg.len)).rows ≤ (lat.rowSlice (s * cfg.len) ((s + 1) * cfg.len)).rows ∧
          (lon.rowSlice (s * cfg.len) ((s + 1) * cfg.len)).cols ≤ (lat.rowSlice (s * cfg.len) ((s + 1) * cfg.len)).cols ∧
          (lon.rowSlice (s * cfg.len) ((s + 1) * cfg.len)).cols ≤ cfg.width)) ↔
        (min ((s + 1) * cfg.len) lon.rows ≤ s * cfg.len ∨ lon.cols = 0 ∨
        (min ((s + 1) * cfg.len) lon.rows ≤ lat.rows ∧ lon.cols ≤ lat.cols ∧ lon.cols ≤ cfg.width)) := by
      simp only [Arr2.rowSlice]; omega
    rw [hiff] at h2
    constructor
    · rintro ⟨_, hl⟩
      obtain ⟨xyz, e2, x1, x2, x3⟩ := h2.1 hl
      have sh1' : Shaped cfg { b1 with xyzCoarse := xyz } :=
        ⟨sh1.t, sh1.s, sh1.a, sh1.b, sh1.c, sh1.d, ⟨x1, x2, x3⟩, sh1.xf⟩
      obtain ⟨b2, e3, sh2, ho2, hf⟩ := computeFineXyz_ok hg (b := { b1 with xyzCoarse := xyz }) sh1'
        (T := b1.aTrack.cell) (S := b1.aScan.cell) (X := xyz.cell)
        ⟨sh1.t.1, sh1.t.2, fun _ _ _ _ _ => rfl⟩ ⟨sh1.s.1, sh1.s.2, fun _ _ _ _ _ => rfl⟩
        ⟨x1, x2, x3, fun _ _ _ _ _ _ _ => rfl⟩
      have hout : b2.out = b.out := by rw [ho2]; exact ho1
      obtain ⟨o, e4, q1, q2⟩ := xyz2lonlatArr_ok (N := satz.rows * cfg.f) (k0 := s * cfg.len * cfg.f)
        (k1 := (s + 1) * cfg.len * cfg.f) (o1 := b2.out.1) (o2 := b2.out.2) (S := fun _ _ => False)
        (F1 := fun i j => (Geo.cyXyz2lonlat Geo.earthRadius Geo.cyThr true
          (b2.xyzFine.cell (i - s * cfg.len * cfg.f) j 0, b2.xyzFine.cell (i - s * cfg.len * cfg.f) j 1,
            b2.xyzFine.cell (i - s * cfg.len * cfg.f) j 2)).1)
        (F2 := fun i j => (Geo.cyXyz2lonlat Geo.earthRadius Geo.cyThr true
          (b2.xyzFine.cell (i - s * cfg.len * cfg.f) j 0, b2.xyzFine.cell (i - s * cfg.len * cfg.f) j 1,
            b2.xyzFine.cell (i - s * cfg.len * cfg.f) j 2)).2)
        (xyz := b2.xyzFine) (R := cfg.len * cfg.f) (C := cfg.fineWidth) (G := b2.xyzFine.cell)
        ⟨hf.rows, hf.cols, hf.depth, fun _ _ _ _ _ _ _ => rfl⟩ (by ring) (Nat.mul_le_mul_right _ hsN)
        ⟨by rw [hout]; exact hb.out.1, by rw [hout]; exact hb.out.2.1, fun _ _ _ _ h => h.elim⟩
        ⟨by rw [hout]; exact hb.out.2.2.1, by rw [hout]; exact hb.out.2.2.2, fun _ _ _ _ h => h.elim⟩
        (fun i j _ _ => by simp only [Nat.add_sub_cancel_left])
      refine ⟨{ b2 with out := o }, ?_, ⟨sh2.t, sh2.s, sh2.a, sh2.b, sh2.c, sh2.d, sh2.xc, sh2.xf⟩,
        q1.rows, q1.cols, q2.rows, q2.cols⟩
      unfold scanStep
      simp only [bind, Except.bind, e1, e2, e3, e4]
    · intro hn
      have e2 := h2.2 (fun h => hn ⟨hw, h⟩)
      unfold scanStep
      simp only [bind, Except.bind, e1, e2]
  · refine ⟨fun h => absurd h.1 hw, fun _ => ?_⟩
    have e1 := h1.2 hw
    unfold scanStep
    simp only [bind, Except.bind, e1]

/-- every call on a supported geometry -/
theorem interpolateCfg_dich {cfg : Cfg} (hg : Geometry cfg) (lon lat satz : Arr2 α) (junk : Nat → Nat → Nat → Nat → α) :
    (Fits cfg.len cfg.width lon.rows lon.cols lat.rows lat.cols satz.rows satz.cols →
      ∃ out, interpolateCfg cfg lon lat satz junk = .ok out ∧ out.1.rows = satz.rows * cfg.f ∧ out.1.cols = cfg.fineWidth ∧
        out.2.rows = satz.rows * cfg.f ∧ out.2.cols = cfg.fineWidth) ∧
    (¬ Fits cfg.len cfg.width lon.rows lon.cols lat.rows lat.cols satz.rows satz.cols →
      interpolateCfg cfg lon lat satz junk = .error .ub) := by
  obtain ⟨g1, g2, g3, g4, g5⟩ := geom_bounds hg
  have key := loop_dich (n := satz.rows / cfg.len)
    (body := scanStep cfg lon lat satz (getCoords cfg).1 (getCoords cfg).2) (s := initBufs cfg satz.rows junk)
    (ShapedOut cfg (satz.rows * cfg.f))
    (fun s => satz.cols ≤ cfg.width ∧ (min ((s + 1) * cfg.len) lon.rows ≤ s * cfg.len ∨ lon.cols = 0 ∨
        (min ((s + 1) * cfg.len) lon.rows ≤ lat.rows ∧ lon.cols ≤ lat.cols ∧ lon.cols ≤ cfg.width)))
    ⟨⟨⟨rfl, rfl⟩, ⟨rfl, rfl⟩, ⟨rfl, rfl⟩, ⟨rfl, rfl⟩, ⟨rfl, rfl⟩, ⟨rfl, rfl⟩, ⟨rfl, rfl, rfl⟩, ⟨rfl, rfl, rfl⟩⟩,
      rfl, rfl, rfl, rfl⟩
    (fun s b hs hb => (scanStep_dich hg hs hb).1) (fun s b hs hb => (scanStep_dich hg hs hb).2)
  unfold interpolateCfg
  rw [if_neg (geom_run hg)]
  constructor
  · intro hf
    obtain ⟨b, e, hb⟩ := key.1 (fun s hs => by
      have hsN : (s + 1) * cfg.len ≤ satz.rows / cfg.len * cfg.len := Nat.mul_le_mul_right _ hs
      have hle : satz.rows / cfg.len * cfg.len ≤ satz.rows := Nat.div_mul_le_self satz.rows cfg.len
      have hexp : (s + 1) * cfg.len = s * cfg.len + cfg.len := by ring
      unfold Fits at hf
      generalize satz.rows / cfg.len * cfg.len = A at *
      generalize (s + 1) * cfg.len = B at *
      generalize s * cfg.len = D at *
      omega)
    refine ⟨b.out, ?_, hb.out⟩
    simp only [e, bind, Except.bind]
  · intro hf
    unfold Fits at hf
    have hdiv : 1 ≤ satz.rows / cfg.len := (Nat.one_le_div_iff (by omega)).2 (by omega)
    have bad : loop (satz.rows / cfg.len) (scanStep cfg lon lat satz (getCoords cfg).1 (getCoords cfg).2)
        (initBufs cfg satz.rows junk) = .error .ub := by
      by_cases h1 : satz.cols ≤ cfg.width ∧ lon.cols ≤ lat.cols ∧ lon.cols ≤ cfg.width
      · have hlt : lat.rows / cfg.len < satz.rows / cfg.len := by
          rw [Nat.div_lt_iff_lt_mul (by omega)]
          generalize satz.rows / cfg.len * cfg.len = A at *
          omega
        have hm : lat.rows / cfg.len * cfg.len ≤ lat.rows := Nat.div_mul_le_self _ _
        have hm' : lat.rows < (lat.rows / cfg.len + 1) * cfg.len := by
          rw [Nat.add_mul, Nat.one_mul]
          exact Nat.lt_div_mul_add (by omega)
        refine key.2 (lat.rows / cfg.len) hlt ?_
        generalize satz.rows / cfg.len * cfg.len = A at *
        generalize (lat.rows / cfg.len + 1) * cfg.len = B at *
        generalize lat.rows / cfg.len * cfg.len = D at *
        omega
      · refine key.2 0 (by omega) ?_
        rw [Nat.zero_mul]
        simp only [Nat.zero_add, Nat.one_mul]
        generalize satz.rows / cfg.len * cfg.len = A at *
        omega
    simp only [bad, bind, Except.bind]

/-- no fine pixels (1 km input, fine resolution above 1000): in bounds only without a whole scan -/
theorem interpolateCfg_nofine {cfg : Cfg} (hl : cfg.len = 10) (hf : cfg.f = 0) (hw : cfg.fineWidth = 0) (lon lat satz : Arr2 α)
    (junk : Nat → Nat → Nat → Nat → α) :
    (satz.rows < 10 → ∃ out, interpolateCfg cfg lon lat satz junk = .ok out ∧ out.1.rows = 0 ∧ out.1.cols = 0 ∧
        out.2.rows = 0 ∧ out.2.cols = 0) ∧
    (¬ satz.rows < 10 → interpolateCfg cfg lon lat satz junk = .error .ub) := by
  unfold interpolateCfg
  rw [if_neg (by omega), hl]
  constructor
  · intro h
    rw [Nat.div_eq_of_lt h]
    exact ⟨_, rfl, by simp only [initBufs, hf, Nat.mul_zero], hw, by simp only [initBufs, hf, Nat.mul_zero], hw⟩
  · intro h
    have hbad : scanStep cfg lon lat satz (getCoords cfg).1 (getCoords cfg).2 0 (initBufs cfg satz.rows junk) = .error .ub := by
      have hT : (initBufs cfg satz.rows junk).tmpA.rows = 0 ∧ (initBufs cfg satz.rows junk).tmpA.cols = 0 ∧
          (initBufs cfg satz.rows junk).tmpB.rows = 0 ∧ (initBufs cfg satz.rows junk).tmpB.cols = 0 := by
        simp only [initBufs, hf, hw, Nat.mul_zero, and_self]
      obtain ⟨z, hz⟩ : ∃ z, z = satz.rowSlice (0 * cfg.len) ((0 + 1) * cfg.len) := ⟨_, rfl⟩
      have key := computeExpansionAlignment_dich (sw := cfg.perKm)
        (satzA := z.topLeft (z.rows - 1) (z.cols - 1))
        (satzB := (z.topLeft (z.rows - 1) z.cols).from_ 0 1)
        (r := cfg.len - 1) (c := cfg.width - 1) (R := 0) (C := 0)
        (o := ((initBufs cfg satz.rows junk).tmpA, (initBufs cfg satz.rows junk).tmpB))
        (by simp only [Arr2.topLeft, Arr2.from_]; omega) (by simp only [Arr2.topLeft, Arr2.from_]; omega) hT
      unfold scanStep getAtrackAscan
      simp only [bind, Except.bind, ← hz]
      by_cases hc : (z.topLeft (z.rows - 1) (z.cols - 1)).rows = 0 ∨ (z.topLeft (z.rows - 1) (z.cols - 1)).cols = 0 ∨
          ((z.topLeft (z.rows - 1) (z.cols - 1)).rows ≤ min (cfg.len - 1) 0 ∧
            (z.topLeft (z.rows - 1) (z.cols - 1)).cols ≤ min (cfg.width - 1) 0)
      · obtain ⟨o, e, o1, o2, _, _⟩ := key.1 hc
        simp only [e]
        have hx : ∀ arr : Arr2 α, expand cfg (o.1.topLeft (cfg.len - 1) (cfg.width - 1)) arr = .error .ub := by
          intro arr
          have r0 : (o.1.topLeft (cfg.len - 1) (cfg.width - 1)).rows = 0 := by simp only [Arr2.topLeft]; omega
          have c0 : (o.1.topLeft (cfg.len - 1) (cfg.width - 1)).cols = 0 := by simp only [Arr2.topLeft]; omega
          unfold expand expand1kmMain expand1kmRight
          rw [if_pos hl]
          simp only [r0, c0, loop2, loop, bind, Except.bind]
          rw [Arr2.rd_ub (by omega)]
        simp only [hx]
      · simp only [key.2 hc]
    have bad := loop_error (n := satz.rows / 10) (body := scanStep cfg lon lat satz (getCoords cfg).1 (getCoords cfg).2)
      (s := initBufs cfg satz.rows junk) (e := .ub) (fun _ b => b = initBufs cfg satz.rows junk) 0 (by omega) rfl
      (fun i s hi => absurd hi (by omega)) (fun s hs => by rw [hs]; exact hbad)
    simp only [bad, bind, Except.bind]

end
end Verif.Modis
