import Verif.Proofs.ModisSimple
import Verif.Proofs.ModisAny

/-!
# The simple MODIS interpolator for any factor: where it stays inside its arrays
-/

namespace Verif.ModisSimple
open Verif Verif.Modis Verif.Spec.ModisSimple
variable {α : Type} [Trig α]

omit [Trig α] in
private theorem holds_shape {a : Arr2 α} {R C : Nat} (h : a.rows = R ∧ a.cols = C) : a.Holds R C a.cell All2 :=
  ⟨h.1, h.2, fun _ _ _ _ _ => rfl⟩

/-- both extrapolations of rows keep the shape where there are enough rows -/
theorem interpolate250_shape {f R C C' : Nat} {a : Arr2 α} {co : Arr3 α} (h : a.rows = R ∧ a.cols = C)
    (hc : co.Holds 2 R C' (coordCell f) All3) (hR : 40 ≤ R) (hC' : 0 < C') :
    ∃ a', interpolate250 co a = .ok a' ∧ a'.rows = R ∧ a'.cols = C := by
  unfold interpolate250
  rw [h.2]
  refine loop_ok (fun _ (s : Arr2 α) => s.rows = R ∧ s.cols = C) h ?_
  intro col s hcol hp
  have h0 := holds_shape hp
  rw [calcSlope_ok h0 hc (by omega) hcol hC']
  simp only [bind, Except.bind]
  rw [calcOffset_ok h0 hc (by omega) hcol hC']
  simp only
  obtain ⟨s1, e1, p1⟩ := putLine_ok (m := (s.cell (2 + 3) col - s.cell 2 col) / (coordY f (2 + 3) - coordY f 2))
    (b := s.cell (2 + 3) col - (s.cell (2 + 3) col - s.cell 2 col) / (coordY f (2 + 3) - coordY f 2) * coordY f (2 + 3))
    (row := 0) h0 hc (by omega) hcol hC'
  rw [e1]; simp only
  obtain ⟨s2, e2, p2⟩ := putLine_ok (m := (s.cell (2 + 3) col - s.cell 2 col) / (coordY f (2 + 3) - coordY f 2))
    (b := s.cell (2 + 3) col - (s.cell (2 + 3) col - s.cell 2 col) / (coordY f (2 + 3) - coordY f 2) * coordY f (2 + 3))
    (row := 1) p1 hc (by omega) hcol hC'
  rw [e2]; simp only
  have h2 := holds_shape ⟨p2.rows, p2.cols⟩
  rw [calcSlope_ok h2 hc (by omega) hcol hC']
  simp only
  rw [calcOffset_ok h2 hc (by omega) hcol hC']
  simp only
  obtain ⟨s3, e3, p3⟩ := putLine_ok (m := (s2.cell (34 + 3) col - s2.cell 34 col) / (coordY f (34 + 3) - coordY f 34))
    (b := s2.cell (34 + 3) col - (s2.cell (34 + 3) col - s2.cell 34 col) / (coordY f (34 + 3) - coordY f 34) * coordY f (34 + 3))
    (row := 38) h2 hc (by omega) hcol hC'
  rw [e3]; simp only
  obtain ⟨s4, e4, p4⟩ := putLine_ok (m := (s2.cell (34 + 3) col - s2.cell 34 col) / (coordY f (34 + 3) - coordY f 34))
    (b := s2.cell (34 + 3) col - (s2.cell (34 + 3) col - s2.cell 34 col) / (coordY f (34 + 3) - coordY f 34) * coordY f (34 + 3))
    (row := 39) p3 hc (by omega) hcol hC'
  exact ⟨s4, e4, p4.rows, p4.cols⟩

theorem interpolate500_shape {f R C C' : Nat} {a : Arr2 α} {co : Arr3 α} (h : a.rows = R ∧ a.cols = C)
    (hc : co.Holds 2 R C' (coordCell f) All3) (hR : 20 ≤ R) (hC' : 0 < C') :
    ∃ a', interpolate500 co a = .ok a' ∧ a'.rows = R ∧ a'.cols = C := by
  unfold interpolate500
  rw [h.2]
  refine loop_ok (fun _ (s : Arr2 α) => s.rows = R ∧ s.cols = C) h ?_
  intro col s hcol hp
  have h0 := holds_shape hp
  rw [calcSlope_ok h0 hc (by omega) hcol hC']
  simp only [bind, Except.bind]
  rw [calcOffset_ok h0 hc (by omega) hcol hC']
  simp only
  obtain ⟨s1, e1, p1⟩ := putLine_ok (m := (s.cell (1 + 1) col - s.cell 1 col) / (coordY f (1 + 1) - coordY f 1))
    (b := s.cell (1 + 1) col - (s.cell (1 + 1) col - s.cell 1 col) / (coordY f (1 + 1) - coordY f 1) * coordY f (1 + 1))
    (row := 0) h0 hc (by omega) hcol hC'
  rw [e1]; simp only
  have h2 := holds_shape ⟨p1.rows, p1.cols⟩
  rw [calcSlope_ok h2 hc (by omega) hcol hC']
  simp only
  rw [calcOffset_ok h2 hc (by omega) hcol hC']
  simp only
  obtain ⟨s3, e3, p3⟩ := putLine_ok (m := (s1.cell (17 + 1) col - s1.cell 17 col) / (coordY f (17 + 1) - coordY f 17))
    (b := s1.cell (17 + 1) col - (s1.cell (17 + 1) col - s1.cell 17 col) / (coordY f (17 + 1) - coordY f 17) * coordY f (17 + 1))
    (row := 19) h2 hc (by omega) hcol hC'
  exact ⟨s3, e3, p3.rows, p3.cols⟩

/-- enough rows and columns in a scan of fine pixels for the extrapolations -/
def Enough (f R C : Nat) : Prop := if f = 4 then 40 ≤ R ∧ 5 ≤ C else 20 ≤ R ∧ 3 ≤ C

instance (f R C : Nat) : Decidable (Enough f R C) := by unfold Enough; infer_instance

theorem interpScan_shape {mc : MapCoord α} {f R C : Nat} {co xyzIn res : Arr3 α}
    (hco : co.Holds 2 R C (coordCell f) All3) (h1 : res.rows = R) (h2 : res.cols = C) (h3 : res.depth = 3)
    (h : Enough f R C) :
    ∃ res', interpScan mc f co xyzIn res = .ok res' ∧ res'.rows = R ∧ res'.cols = C ∧ res'.depth = 3 := by
  obtain ⟨r1, e1, s1, s2, s3⟩ := mapLoop_shape (mc := mc) (co := co) (xyzIn := xyzIn) (res := res)
  unfold interpScan
  rw [e1]
  simp only [bind, Except.bind]
  have hr : ∀ n (p : Arr2 α), n + 2 ≤ C → p.rows = R ∧ p.cols = C →
      ∃ a', extrapolateRight n p = .ok a' ∧ a'.rows = R ∧ a'.cols = C := by
    intro n p hn hp
    obtain ⟨a', e, q⟩ := extrapolateRight_ok hn (holds_shape hp)
    exact ⟨a', e, q.rows, q.cols⟩
  unfold Enough at h
  by_cases h4 : f = 4
  · rw [if_pos h4] at h ⊢
    refine loop_ok (fun _ (s : Arr3 α) => s.rows = R ∧ s.cols = C ∧ s.depth = 3) ⟨by omega, by omega, by omega⟩ ?_
    intro k s _ hp
    obtain ⟨p, e, q⟩ := hr 3 (s.plane k) (by omega) ⟨hp.1, hp.2.1⟩
    obtain ⟨p', e', _⟩ := interpolate250_shape (f := f) q hco h.1 (by omega)
    exact ⟨s.setPlane k p', by simp only [e, e'], hp⟩
  · rw [if_neg h4] at h ⊢
    refine loop_ok (fun _ (s : Arr3 α) => s.rows = R ∧ s.cols = C ∧ s.depth = 3) ⟨by omega, by omega, by omega⟩ ?_
    intro k s _ hp
    obtain ⟨p, e, q⟩ := hr 1 (s.plane k) (by omega) ⟨hp.1, hp.2.1⟩
    obtain ⟨p', e', _⟩ := interpolate500_shape (f := f) q hco h.1 (by omega)
    exact ⟨s.setPlane k p', by simp only [e, e'], hp⟩

/-- without fine pixels nothing is computed -/
theorem interpScan_empty {mc : MapCoord α} {f : Nat} {co xyzIn res : Arr3 α} (h1 : res.rows = 0) (h2 : res.cols = 0) :
    ∃ res', interpScan mc f co xyzIn res = .ok res' ∧ res'.rows = 0 ∧ res'.cols = 0 ∧ res'.depth = res.depth := by
  obtain ⟨r1, e1, s1, s2, s3⟩ := mapLoop_shape (mc := mc) (co := co) (xyzIn := xyzIn) (res := res)
  unfold interpScan
  rw [e1]
  simp only [bind, Except.bind]
  have ex : ∀ n (p : Arr2 α), p.rows = 0 → extrapolateRight n p = .ok p := by
    intro n p hp
    unfold extrapolateRight
    rw [hp]; rfl
  have i1 : ∀ p : Arr2 α, p.cols = 0 → interpolate250 co p = .ok p := by
    intro p hp
    unfold interpolate250
    rw [hp]; rfl
  have i2 : ∀ p : Arr2 α, p.cols = 0 → interpolate500 co p = .ok p := by
    intro p hp
    unfold interpolate500
    rw [hp]; rfl
  by_cases h4 : f = 4
  · rw [if_pos h4]
    refine loop_ok (fun _ (s : Arr3 α) => s.rows = 0 ∧ s.cols = 0 ∧ s.depth = res.depth) ⟨by omega, by omega, by omega⟩ ?_
    intro k s _ hp
    exact ⟨s.setPlane k (s.plane k), by simp only [ex 3 (s.plane k) hp.1, i1 (s.plane k) hp.2.1], hp⟩
  · rw [if_neg h4]
    refine loop_ok (fun _ (s : Arr3 α) => s.rows = 0 ∧ s.cols = 0 ∧ s.depth = res.depth) ⟨by omega, by omega, by omega⟩ ?_
    intro k s _ hp
    exact ⟨s.setPlane k (s.plane k), by simp only [ex 1 (s.plane k) hp.1, i2 (s.plane k) hp.2.1], hp⟩

theorem interpolate250_ub {R C C' f : Nat} {a : Arr2 α} {co : Arr3 α}
    (h : a.rows = R ∧ a.cols = C) (hc : co.Holds 2 R C' (coordCell f) All3) (hC : 0 < C) (hC' : 0 < C') (hR : 6 ≤ R)
    (hR' : R ≤ 37) : interpolate250 co a = .error .ub := by
  unfold interpolate250
  rw [h.2]
  refine loop_error (P := fun _ s => s = a) 0 hC rfl (fun i s hi => absurd hi (by omega)) ?_
  rintro s rfl
  have h0 := holds_shape h
  rw [calcSlope_ok h0 hc (by omega) hC hC']
  simp only [bind, Except.bind]
  rw [calcOffset_ok h0 hc (by omega) hC hC']
  simp only
  obtain ⟨s1, e1, p1⟩ := putLine_ok (m := (s.cell (2 + 3) 0 - s.cell 2 0) / (coordY f (2 + 3) - coordY f 2))
    (b := s.cell (2 + 3) 0 - (s.cell (2 + 3) 0 - s.cell 2 0) / (coordY f (2 + 3) - coordY f 2) * coordY f (2 + 3))
    (row := 0) h0 hc (by omega) hC hC'
  rw [e1]; simp only
  obtain ⟨s2, e2, p2⟩ := putLine_ok (m := (s.cell (2 + 3) 0 - s.cell 2 0) / (coordY f (2 + 3) - coordY f 2))
    (b := s.cell (2 + 3) 0 - (s.cell (2 + 3) 0 - s.cell 2 0) / (coordY f (2 + 3) - coordY f 2) * coordY f (2 + 3))
    (row := 1) p1 hc (by omega) hC hC'
  rw [e2]
  simp only [calcSlope]
  rw [Arr2.rd_ub (by rw [p2.rows]; omega)]
  rfl

theorem interpolate500_ub_two {C : Nat} {a : Arr2 α} {co : Arr3 α} (h : a.rows ≤ 2 ∧ a.cols = C) (hC : 0 < C) :
    interpolate500 co a = .error .ub := by
  unfold interpolate500
  rw [h.2]
  refine loop_error (P := fun _ s => s = a) 0 hC rfl (fun i s hi => absurd hi (by omega)) ?_
  rintro s rfl
  simp only [calcSlope, bind, Except.bind]
  rw [Arr2.rd_ub (by omega)]

/-- too few rows or columns for the extrapolations; `6 ≤ R` for factor 4 and `R ≠ 19`, `R ≤ 37` hold for the resolutions known -/
theorem interpScan_ub {mc : MapCoord α} {f R C : Nat} {co xyzIn res : Arr3 α} (hco : co.Holds 2 R C (coordCell f) All3)
    (h1 : res.rows = R) (h2 : res.cols = C) (hR : 0 < R) (h : ¬ Enough f R C)
    (hk : if f = 4 then 6 ≤ R ∧ (R < 40 → R ≤ 37) else R ≠ 19) : interpScan mc f co xyzIn res = .error .ub := by
  by_cases hn : C < nRight f + 2
  · exact interpScan_narrow_ub (by omega) (by omega)
  have hn' := hn
  by_cases hf : f = 4
  · simp only [nRight, Enough, if_pos hf] at hn h hk
    obtain ⟨r1, e1, s1, s2, _⟩ := mapLoop_shape (mc := mc) (co := co) (xyzIn := xyzIn) (res := res)
    unfold interpScan
    rw [e1]
    simp only [bind, Except.bind, if_pos hf]
    refine loop_error (P := fun _ s => s = r1) 0 (by omega) rfl (fun i s hi => absurd hi (by omega)) ?_
    rintro s rfl
    obtain ⟨p, e, q⟩ := extrapolateRight_ok (n := 3) (R := R) (C := C) (a := s.plane 0) (by omega)
      ⟨by simp only [Arr3.plane]; omega, by simp only [Arr3.plane]; omega, fun _ _ _ _ _ => rfl⟩
    simp only [e]
    rw [interpolate250_ub ⟨q.rows, q.cols⟩ hco (by omega) (by omega) hk.1 (hk.2 (by omega))]
  · simp only [nRight, Enough, if_neg hf] at hn h hk
    by_cases h3 : 3 ≤ R
    · exact interpScan_short_ub hf hco (by omega) h1 h2 h3 (by omega)
    · obtain ⟨r1, e1, s1, s2, _⟩ := mapLoop_shape (mc := mc) (co := co) (xyzIn := xyzIn) (res := res)
      unfold interpScan
      rw [e1]
      simp only [bind, Except.bind, if_neg hf]
      refine loop_error (P := fun _ s => s = r1) 0 (by omega) rfl (fun i s hi => absurd hi (by omega)) ?_
      rintro s rfl
      obtain ⟨p, e, q⟩ := extrapolateRight_ok (n := 1) (R := R) (C := C) (a := s.plane 0) (by omega)
        ⟨by simp only [Arr3.plane]; omega, by simp only [Arr3.plane]; omega, fun _ _ _ _ _ => rfl⟩
      simp only [e]
      rw [interpolate500_ub_two ⟨by rw [q.rows]; omega, q.cols⟩ (by omega)]

theorem xyz2lonlatArr_shape {xyz : Arr3 α} {R C N k0 k1 : Nat} {o : Arr2 α × Arr2 α}
    (hx : xyz.rows = R ∧ xyz.cols = C ∧ xyz.depth = 3) (hk : k0 + R = k1) (hN : k1 ≤ N)
    (h : o.1.rows = N ∧ o.1.cols = C ∧ o.2.rows = N ∧ o.2.cols = C) :
    ∃ o', xyz2lonlatArr xyz k0 k1 o = .ok o' ∧ o'.1.rows = N ∧ o'.1.cols = C ∧ o'.2.rows = N ∧ o'.2.cols = C := by
  unfold xyz2lonlatArr
  rw [hx.1, hx.2.1]
  refine loop2_ok (fun _ (o : Arr2 α × Arr2 α) => o.1.rows = N ∧ o.1.cols = C ∧ o.2.rows = N ∧ o.2.cols = C) h
    (fun _ _ _ _ hp => hp) ?_
  intro i j _ s hi hj hp
  have hr : ∀ k, k < 3 → xyz.rd i j k = .ok (xyz.cell i j k) := fun k hk => if_pos ⟨by omega, by omega, by omega⟩
  have hw : ∀ (a : Arr2 α) v, a.rows = N → a.cols = C → a.wrRowSlice k0 k1 i j v
      = .ok { a with cell := fun i' j' => if i' = k0 + i ∧ j' = j then v else a.cell i' j' } := by
    intro a v h1 h2
    rw [Arr2.wrRowSlice, if_pos ⟨by omega, by omega⟩, Arr2.wr, if_pos ⟨by omega, by omega⟩]
  simp only [bind, Except.bind, hr 0 (by omega), hr 1 (by omega), hr 2 (by omega), hw _ _ hp.1 hp.2.1, hw _ _ hp.2.2.1 hp.2.2.2]
  exact ⟨_, rfl, hp⟩

/-- the whole run, for any rows per scan and factor, and any shapes: in bounds exactly if, unless there is no whole scan, there are
latitudes for all the longitudes used, and every scan has enough fine pixels or none -/
theorem interpolateRF_dich {mc : MapCoord α} {rps f : Nat} (hrps : 0 < rps) (lon lat : Arr2 α)
    (hk : if f = 4 then 6 ≤ f * rps ∧ (f * rps < 40 → f * rps ≤ 37) else f * rps ≠ 19) (junk : Nat → Nat → Nat → Nat → α) :
    ((lon.rows < rps ∨ ((lon.cols = 0 ∨ (lon.cols ≤ lat.cols ∧ lon.rows / rps * rps ≤ lat.rows)) ∧
        (f = 0 ∨ Enough f (f * rps) (f * lon.cols)))) →
      ∃ out, interpolateRF mc rps f lon lat junk = .ok out ∧ out.1.rows = f * lon.rows ∧ out.1.cols = f * lon.cols ∧
        out.2.rows = f * lon.rows ∧ out.2.cols = f * lon.cols) ∧
    (¬ (lon.rows < rps ∨ ((lon.cols = 0 ∨ (lon.cols ≤ lat.cols ∧ lon.rows / rps * rps ≤ lat.rows)) ∧
        (f = 0 ∨ Enough f (f * rps) (f * lon.cols)))) →
      interpolateRF mc rps f lon lat junk = .error .ub) := by
  obtain ⟨co, eco, hco⟩ := computeYX_ok (f := f) (R := f * rps) (C := f * lon.cols)
    (co := (⟨2, f * rps, f * lon.cols, junk 0⟩ : Arr3 α)) rfl rfl rfl
  have scan : ∀ xyz res : Arr3 α, res.rows = f * rps → res.cols = f * lon.cols → res.depth = 3 →
      ((f = 0 ∨ Enough f (f * rps) (f * lon.cols)) → ∃ res', interpScan mc f co xyz res = .ok res' ∧ res'.rows = f * rps ∧
        res'.cols = f * lon.cols ∧ res'.depth = 3) ∧
      (¬ (f = 0 ∨ Enough f (f * rps) (f * lon.cols)) → interpScan mc f co xyz res = .error .ub) := by
    intro xyz res r1 r2 r3
    constructor
    · rintro (rfl | h)
      · obtain ⟨res', e, q1, q2, q3⟩ := interpScan_empty (mc := mc) (f := 0) (co := co) (xyzIn := xyz) (res := res)
          (by rw [r1, Nat.zero_mul]) (by rw [r2, Nat.zero_mul])
        exact ⟨res', e, by rw [q1, Nat.zero_mul], by rw [q2, Nat.zero_mul], by rw [q3, r3]⟩
      · exact interpScan_shape hco r1 r2 r3 h
    · intro h
      simp only [not_or] at h
      exact interpScan_ub hco r1 r2 (Nat.mul_pos (by omega) hrps) h.2 hk
  have key := loop_dich (n := lon.rows / rps) (body := scanStep mc f rps lon lat co)
    (s := (⟨⟨rps, lon.cols, 3, junk 1⟩, ⟨f * rps, lon.cols * f, 3, junk 2⟩,
        (⟨f * lon.rows, f * lon.cols, junk 3 0⟩, ⟨f * lon.rows, f * lon.cols, junk 4 0⟩)⟩ : Bufs α))
    (fun b => (b.xyzIn.rows = rps ∧ b.xyzIn.cols = lon.cols ∧ b.xyzIn.depth = 3) ∧
        (b.res.rows = f * rps ∧ b.res.cols = f * lon.cols ∧ b.res.depth = 3) ∧
        b.out.1.rows = f * lon.rows ∧ b.out.1.cols = f * lon.cols ∧ b.out.2.rows = f * lon.rows ∧ b.out.2.cols = f * lon.cols)
    (fun s => (lon.cols = 0 ∨ (lon.cols ≤ lat.cols ∧ rps * s + rps ≤ lat.rows)) ∧
        (f = 0 ∨ Enough f (f * rps) (f * lon.cols)))
    ⟨⟨rfl, rfl, rfl⟩, ⟨rfl, Nat.mul_comm _ _, rfl⟩, rfl, rfl, rfl, rfl⟩
    (by
      rintro s b hs ⟨hx, ⟨r1, r2, r3⟩, hout⟩ ⟨hl, hf⟩
      have hsN : rps * s + rps ≤ lon.rows := by
        calc rps * s + rps = (s + 1) * rps := by ring
          _ ≤ lon.rows / rps * rps := Nat.mul_le_mul_right _ hs
          _ ≤ lon.rows := Nat.div_mul_le_self _ rps
      obtain ⟨xyz, e1, x1, x2, x3⟩ := (lonlat2xyzArr_dich (lons := lon.rowSlice (rps * s) (rps * s + rps))
        (lats := lat.rowSlice (rps * s) (rps * s + rps)) hx (by simp only [Arr2.rowSlice]; omega)).1
        (by simp only [Arr2.rowSlice]; omega)
      obtain ⟨res, e2, q1, q2, q3⟩ := (scan xyz b.res r1 r2 r3).1 hf
      have hk1 : rps * f * s + rps * f ≤ f * lon.rows := by
        calc rps * f * s + rps * f = f * (rps * s + rps) := by ring
          _ ≤ _ := Nat.mul_le_mul_left _ hsN
      obtain ⟨o, e3, q⟩ := xyz2lonlatArr_shape (R := f * rps) (C := f * lon.cols) (N := f * lon.rows) (k0 := rps * f * s)
        (k1 := rps * f * s + rps * f) (o := b.out) ⟨q1, q2, q3⟩ (by rw [Nat.mul_comm f rps]) hk1 hout
      refine ⟨⟨xyz, res, o⟩, ?_, ⟨x1, x2, x3⟩, ⟨q1, q2, q3⟩, q⟩
      simp only [scanStep, bind, Except.bind, e1, e2, e3])
    (by
      rintro s b hs ⟨hx, ⟨r1, r2, r3⟩, hout⟩ hn
      have hsN : rps * s + rps ≤ lon.rows := by
        calc rps * s + rps = (s + 1) * rps := by ring
          _ ≤ lon.rows / rps * rps := Nat.mul_le_mul_right _ hs
          _ ≤ lon.rows := Nat.div_mul_le_self _ rps
      have hd := lonlat2xyzArr_dich (lons := lon.rowSlice (rps * s) (rps * s + rps))
        (lats := lat.rowSlice (rps * s) (rps * s + rps)) hx (by simp only [Arr2.rowSlice]; omega)
      by_cases hl : lon.cols = 0 ∨ (lon.cols ≤ lat.cols ∧ rps * s + rps ≤ lat.rows)
      · obtain ⟨xyz, e1, _⟩ := hd.1 (by simp only [Arr2.rowSlice]; omega)
        have e2 := (scan xyz b.res r1 r2 r3).2 (fun h => hn ⟨hl, h⟩)
        simp only [scanStep, bind, Except.bind, e1, e2]
      · have e1 := hd.2 (by simp only [Arr2.rowSlice]; omega)
        simp only [scanStep, bind, Except.bind, e1])
  unfold interpolateRF
  rw [eco]
  simp only [bind, Except.bind]
  constructor
  · intro h
    obtain ⟨b, eb, _, _, q⟩ := key.1 (fun s hs => by
      have hsN : rps * s + rps ≤ lon.rows / rps * rps := by
        calc rps * s + rps = (s + 1) * rps := by ring
          _ ≤ _ := Nat.mul_le_mul_right _ hs
      have hle : lon.rows / rps * rps ≤ lon.rows := Nat.div_mul_le_self _ rps
      rcases h with h | ⟨h1, h2⟩
      · omega
      · exact ⟨by omega, h2⟩)
    rw [eb]
    exact ⟨b.out, rfl, q⟩
  · intro h
    simp only [not_or, not_lt] at h
    have hdiv : 1 ≤ lon.rows / rps := (Nat.one_le_div_iff hrps).2 h.1
    have hlast : rps * (lon.rows / rps - 1) + rps = lon.rows / rps * rps := by
      obtain ⟨m, hm⟩ : ∃ m, lon.rows / rps = m + 1 := ⟨_, (Nat.sub_add_cancel hdiv).symm⟩
      rw [hm, Nat.add_sub_cancel]; ring
    rw [key.2 (lon.rows / rps - 1) (by omega) (fun hc => h.2 (by rw [hlast] at hc; exact hc))]

end Verif.ModisSimple
