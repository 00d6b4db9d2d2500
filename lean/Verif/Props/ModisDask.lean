import Verif.Proofs.ModisDask
import Verif.Props.Modis
import Verif.Props.ModisSimple

/-!
# C30: the lazy (dask) path of the MODIS interpolators

Every theorem holds for every arithmetic `α`.
-/

namespace Verif.Props
open Verif Verif.Modis Verif.ModisDask

variable {α : Type} [Trig α]

/-! ### the public functions -/

namespace Conv

/-- input resolution -/
def coarse : Conv → Nat
  | km1to500 => 1000 | km1to250 => 1000 | _ => 5000

/-- output resolution -/
def fine : Conv → Nat
  | km1to500 => 500 | km1to250 => 250 | km5to1 => 1000 | km5to500 => 500 | km5to250 => 250

/-- the public function (dask arrays) -/
def lazyRun (c : Conv) (lon lat satz : DArr α) (junk : Nat → Nat → Nat → Nat → Nat → α) : Except Err (Lazy α) :=
  match c with
  | km1to500 => lazyAngle1km 500 lon lat satz junk
  | km1to250 => lazyAngle1km 250 lon lat satz junk
  | km5to1 => lazyAngle5km 1000 lon lat satz junk
  | km5to500 => lazyAngle5km 500 lon lat satz junk
  | km5to250 => lazyAngle5km 250 lon lat satz junk

/-- the keyword argument `coarse_scan_width` -/
def widthArg (c : Conv) (w : Nat) : Nat :=
  match c with
  | km1to500 => 0 | km1to250 => 0 | _ => w

theorem lazyRun_eq (c : Conv) (lon lat satz : DArr α) (junk : Nat → Nat → Nat → Nat → Nat → α) :
    c.lazyRun lon lat satz junk
      = lazyInterp (angleTask c.coarse c.fine (c.widthArg lon.data.cols) junk) c.coarse c.fine lon [lat, satz] := by
  cases c <;> rfl

theorem interpolate_eq_run (c : Conv) (lon lat satz : Arr2 α) (junk : Nat → Nat → Nat → Nat → α) :
    Modis.interpolate c.coarse c.fine (c.widthArg lon.cols) lon lat satz junk = c.run lon lat satz junk := by
  cases c <;> rfl

end Conv

/-- The per-pixel formula of an array that starts `s` scans further down. -/
theorem pixel_shift {cfg : Cfg} (hp : 0 < cfg.len * cfg.f) (lon lat satz : Nat → Nat → α) (s r c : Nat) :
    Spec.Modis.pixel cfg (fun i j => lon (s * cfg.len + i) j) (fun i j => lat (s * cfg.len + i) j)
      (fun i j => satz (s * cfg.len + i) j) r c
      = Spec.Modis.pixel cfg lon lat satz (s * cfg.len * cfg.f + r) c := by
  unfold Spec.Modis.pixel
  have hd : (s * cfg.len * cfg.f + r) / (cfg.len * cfg.f) = s + r / (cfg.len * cfg.f) := by
    rw [Nat.mul_assoc, Nat.mul_comm s, Nat.mul_add_div hp]
  have hm : (s * cfg.len * cfg.f + r) % (cfg.len * cfg.f) = r % (cfg.len * cfg.f) := by
    rw [Nat.mul_assoc, Nat.mul_comm s, Nat.mul_add_mod]
  rw [hd, hm, Nat.add_mul]
  simp only [Spec.Modis.scanPixel, Spec.Modis.fineXyz, Spec.Modis.trackScan, Spec.Modis.ties, Spec.Modis.tieXyz,
    Nat.add_assoc]

theorem spixel_shift {mc : ModisSimple.MapCoord α} {f C : Nat} (hp : 0 < f) (lon lat : Nat → Nat → α) (s r c : Nat) :
    Spec.ModisSimple.pixel mc f C (fun i j => lon (s * 10 + i) j) (fun i j => lat (s * 10 + i) j) r c
      = Spec.ModisSimple.pixel mc f C lon lat (s * 10 * f + r) c := by
  unfold Spec.ModisSimple.pixel
  have hd : (s * 10 * f + r) / (10 * f) = s + r / (10 * f) := by
    rw [Nat.mul_assoc, Nat.mul_comm s, Nat.mul_add_div (by omega)]
  have hm : (s * 10 * f + r) % (10 * f) = r % (10 * f) := by
    rw [Nat.mul_assoc, Nat.mul_comm s, Nat.mul_add_mod]
  rw [hd, hm, Nat.add_mul]
  simp only [Spec.ModisSimple.scanPixel, Spec.Modis.ties, Spec.Modis.tieXyz, Nat.add_assoc]

/-- The lazy result `l` is the eager result `out`: same shape, same content, and every computed block has the size
declared for it. -/
def LazyEq (l : Lazy α) (out : Arr2 α × Arr2 α) : Prop :=
  l.rowChunks.sum = out.1.rows ∧ l.colChunks = [out.1.cols] ∧
  (∃ bs, l.blocks.mapM id = .ok bs ∧
    bs.map (fun b => b.1.rows) = l.rowChunks ∧ bs.map (fun b => b.2.rows) = l.rowChunks ∧
    ∀ b ∈ bs, b.1.cols = out.1.cols ∧ b.2.cols = out.1.cols) ∧
  ∀ d, ∃ lout, l.compute d = .ok lout ∧
    lout.1.rows = out.1.rows ∧ lout.1.cols = out.1.cols ∧ lout.2.rows = out.2.rows ∧ lout.2.cols = out.2.cols ∧
    ∀ r c, r < out.1.rows → c < out.1.cols → lout.1.cell r c = out.1.cell r c ∧ lout.2.cell r c = out.2.cell r c

omit [Trig α] in
theorem LazyEq.of_computes {l : Lazy α} {out : Arr2 α × Arr2 α} {R C : Nat} {G : Nat → Nat → α × α}
    (hl : ∀ d, l.Computes d R C G) (hc : l.colChunks = [C]) (d0 : α)
    (p1 : out.1.Holds R C (fun r c => (G r c).1) (fun _ _ => True))
    (p2 : out.2.Holds R C (fun r c => (G r c).2) (fun _ _ => True)) : LazyEq l out := by
  refine ⟨by rw [(hl d0).rowSum, p1.rows], by rw [hc, p1.cols], ?_, fun d => ?_⟩
  · rw [p1.cols]; exact (hl d0).blocks
  · obtain ⟨lout, e, q1, q2⟩ := (hl d).out
    refine ⟨lout, e, by rw [q1.rows, p1.rows], by rw [q1.cols, p1.cols], by rw [q2.rows, p2.rows],
      by rw [q2.cols, p2.cols], fun r c hr hcc => ?_⟩
    rw [p1.rows] at hr
    rw [p1.cols] at hcc
    rw [q1.cell r c hr hcc trivial, p1.cell r c hr hcc trivial, q2.cell r c hr hcc trivial,
      p2.cell r c hr hcc trivial]
    exact ⟨rfl, rfl⟩

/-- **C30 (satellite-angle interpolator)**: for dask inputs of `n` whole scans, with any row and column chunks (possibly
different for the three arrays) such that the first row chunk of the first array has at least the rows of one scan,
the lazy run succeeds and equals the eager run: shapes, declared chunks, every pixel.  The memory found by the eager
run and by each task is arbitrary. -/
theorem C30_lazy_eager (c : Conv) (n : Nat) (lon lat satz : DArr α) (h : ScanInput c n lon.data lat.data satz.data)
    (hwf : lon.WF) (r0 : Nat) (cs : List Nat) (hr : lon.rowChunks = r0 :: cs) (hr0 : n = 0 ∨ c.scanRows ≤ r0)
    (junk : Nat → Nat → Nat → Nat → α) (junk' : Nat → Nat → Nat → Nat → Nat → α) :
    ∃ out l, c.run lon.data lat.data satz.data junk = .ok out ∧ c.lazyRun lon lat satz junk' = .ok l ∧
      LazyEq l out := by
  obtain ⟨out, e, p1, p2⟩ := run_pixel c h junk
  have hpos : 0 < c.scanRows := by cases c <;> simp [Conv.scanRows]
  have hlf : 0 < (c.cfg lon.data.cols).len * (c.cfg lon.data.cols).f := by
    rw [c.cfg_len, c.cfg_f]; cases c <;> simp [Conv.scanRows, Conv.factor]
  obtain ⟨kk, hk, hkk⟩ : ∃ kk, finePerKm c.fine = .ok kk ∧ 1354 * kk = c.outCols := by
    cases c
    · exact ⟨2, rfl, rfl⟩
    · exact ⟨4, rfl, rfl⟩
    · exact ⟨1, rfl, rfl⟩
    · exact ⟨2, rfl, rfl⟩
    · exact ⟨4, rfl, rfl⟩
  have key : ∀ d, ∃ l, c.lazyRun lon lat satz junk' = .ok l ∧ l.colChunks = [1354 * kk] ∧
      l.Computes d (n * c.scanRows * c.factor) c.outCols
        (fun r k => Spec.Modis.pixel (c.cfg lon.data.cols) lon.data.cell lat.data.cell satz.data.cell r k) := by
    intro d
    rw [c.lazyRun_eq]
    refine lazyInterp_ok (rps := c.scanRows) (n := n) (r0 := r0) (cs := cs) d (by cases c <;> rfl) hpos hk
      (by cases c <;> simp [Conv.fine]) (by cases c <;> rfl) rfl hwf hr ?_ ?_ ?_
    · rcases hr0 with h | h
      · left; rw [h, Nat.zero_mul]
      · exact Or.inr h
    · intro a ha
      simp only [List.mem_cons, List.not_mem_nil, or_false] at ha
      rcases ha with ha | ha | ha
      · rw [ha, h.lonRows]
      · rw [ha, h.latRows]
      · rw [ha, h.satzRows]
    · intro k s m hsm
      rw [Nat.add_mul] at hsm
      have hslice : ∀ a : Arr2 α, a.rows = n * c.scanRows →
          (a.rowSlice (s * c.scanRows) (s * c.scanRows + m * c.scanRows)).rows = m * c.scanRows := by
        intro a ha
        simp only [Arr2.rowSlice, ha]; omega
      obtain ⟨out', e', q1, q2⟩ := run_pixel c (n := m)
        (lon := lon.data.rowSlice (s * c.scanRows) (s * c.scanRows + m * c.scanRows))
        (lat := lat.data.rowSlice (s * c.scanRows) (s * c.scanRows + m * c.scanRows))
        (satz := satz.data.rowSlice (s * c.scanRows) (s * c.scanRows + m * c.scanRows))
        ⟨h.width, hslice _ h.lonRows, hslice _ h.latRows, hslice _ h.satzRows, h.latCols, h.satzCols⟩ (junk' k)
      have hps := fun r cc => pixel_shift hlf lon.data.cell lat.data.cell satz.data.cell s r cc
      simp only [c.cfg_len, c.cfg_f] at hps
      refine ⟨out', ?_, ?_, ?_⟩
      · rw [← e', ← c.interpolate_eq_run]; rfl
      · simp only [← hps]; exact q1
      · simp only [← hps]; exact q2
  obtain ⟨l, el, hcol, _⟩ := key (lon.data.cell 0 0)
  refine ⟨out, l, e, el, LazyEq.of_computes (fun d => ?_) (by rw [hcol, hkk]) (lon.data.cell 0 0) p1 p2⟩
  obtain ⟨l', el', _, hl'⟩ := key d
  rw [el] at el'
  injection el' with el'
  rw [el']; exact hl'

/-- four scans in chunks of 15, 5 and 20 rows and 1000 and 354 columns -/
example (f g h : Nat → Nat → α) (junk junk') :=
  C30_lazy_eager .km1to250 4 ⟨⟨40, 1354, f⟩, [15, 5, 20], [1000, 354]⟩ ⟨⟨40, 1354, g⟩, [40], [1354]⟩
    ⟨⟨40, 1354, h⟩, [7, 33], [354, 1000]⟩ ⟨rfl, rfl, rfl, rfl, rfl, rfl⟩ ⟨rfl, rfl⟩ 15 [5, 20] rfl (by simp [Conv.scanRows])
    junk junk'

/-- **C30 (simple interpolator)**: the same; the number of columns is 1354 (see `C30_negation_simple_width`). -/
theorem C30_lazy_eager_simple (c : SConv) (mc : ModisSimple.MapCoord α) (n : Nat) (lon lat : DArr α)
    (h : SInput n lon.data lat.data) (hw : lon.data.cols = 1354)
    (hwf : lon.WF) (r0 : Nat) (cs : List Nat) (hr : lon.rowChunks = r0 :: cs) (hr0 : n = 0 ∨ 10 ≤ r0)
    (junk : Nat → Nat → Nat → Nat → α) (junk' : Nat → Nat → Nat → Nat → Nat → α) :
    ∃ out l, c.run mc lon.data lat.data junk = .ok out ∧
      lazySimple1km mc (1000 / c.factor) lon lat junk' = .ok l ∧ LazyEq l out := by
  obtain ⟨out, e, p1, p2⟩ := srun_pixel c mc h junk
  rw [h.lonRows] at p1 p2
  have hk : finePerKm (1000 / c.factor) = .ok c.factor := by cases c <;> rfl
  have key : ∀ d, ∃ l, lazySimple1km mc (1000 / c.factor) lon lat junk' = .ok l ∧ l.colChunks = [1354 * c.factor] ∧
      l.Computes d (n * 10 * c.factor) (lon.data.cols * c.factor)
        (fun r k => Spec.ModisSimple.pixel mc c.factor lon.data.cols lon.data.cell lat.data.cell r k) := by
    intro d
    unfold lazySimple1km
    refine lazyInterp_ok (rps := 10) (n := n) (r0 := r0) (cs := cs) d rfl (by omega) hk
      (by cases c <;> simp [SConv.factor]) (by cases c <;> rfl) rfl hwf hr ?_ ?_ ?_
    · omega
    · intro a ha
      simp only [List.mem_cons, List.not_mem_nil, or_false] at ha
      rcases ha with ha | ha
      · rw [ha, h.lonRows]
      · rw [ha, h.latRows]
    · intro k s m hsm
      have hslice : ∀ a : Arr2 α, a.rows = n * 10 → (a.rowSlice (s * 10) (s * 10 + m * 10)).rows = m * 10 := by
        intro a ha
        simp only [Arr2.rowSlice, ha]; omega
      obtain ⟨out', e', q1, q2⟩ := srun_pixel c mc (n := m)
        (lon := lon.data.rowSlice (s * 10) (s * 10 + m * 10)) (lat := lat.data.rowSlice (s * 10) (s * 10 + m * 10))
        ⟨h.cols, hslice _ h.lonRows, hslice _ h.latRows, h.latCols⟩ (junk' k)
      rw [hslice _ h.lonRows] at q1 q2
      have hps := fun r cc => spixel_shift (mc := mc) (f := c.factor) (C := lon.data.cols)
        (by cases c <;> simp [SConv.factor]) lon.data.cell lat.data.cell s r cc
      refine ⟨out', ?_, ?_, ?_⟩
      · rw [← e']; cases c <;> rfl
      · simp only [← hps]; exact q1
      · simp only [← hps]; exact q2
  obtain ⟨l, el, hcol, _⟩ := key (lon.data.cell 0 0)
  refine ⟨out, l, e, el, LazyEq.of_computes (fun d => ?_) (by rw [hcol, hw]) (lon.data.cell 0 0) p1 p2⟩
  obtain ⟨l', el', _, hl'⟩ := key d
  rw [el] at el'
  injection el' with el'
  rw [el']; exact hl'

example (mc : ModisSimple.MapCoord α) (f g : Nat → Nat → α) (junk junk') :=
  C30_lazy_eager_simple .km1to500 mc 3 ⟨⟨30, 1354, f⟩, [25, 5], [1354]⟩ ⟨⟨30, 1354, g⟩, [30], [1354]⟩
    ⟨by simp, rfl, rfl, rfl⟩ rfl ⟨rfl, rfl⟩ 25 [5] rfl (by simp) junk junk'

/-- **C30 (inputs that are not whole scans)** raise `ValueError` in both interpolators, before anything is computed. -/
theorem C30_not_whole_scans (c : Conv) (lon lat satz : DArr α) (h : ¬ c.scanRows ∣ lon.data.rows) (junk) :
    c.lazyRun lon lat satz junk = .error .valueError := by
  rw [c.lazyRun_eq]
  exact lazyInterp_valueError (by cases c <;> rfl) h

theorem C30_not_whole_scans_simple (c : SConv) (mc : ModisSimple.MapCoord α) (lon lat : DArr α)
    (h : ¬ 10 ∣ lon.data.rows) (junk) : lazySimple1km mc (1000 / c.factor) lon lat junk = .error .valueError :=
  lazyInterp_valueError rfl h

example (mc : ModisSimple.MapCoord α) (f g : Nat → Nat → α) (junk) :=
  C30_not_whole_scans_simple .km1to500 mc ⟨⟨25, 1354, f⟩, [25], [1354]⟩ ⟨⟨25, 1354, g⟩, [25], [1354]⟩
    (by simp) junk
example (f g h : Nat → Nat → α) (junk) :=
  C30_not_whole_scans .km5to1 ⟨⟨3, 270, f⟩, [3], [270]⟩ ⟨⟨3, 270, g⟩, [3], [270]⟩ ⟨⟨3, 270, h⟩, [3], [270]⟩
    (by simp [Conv.scanRows]) junk

/-- **C30, negation (small first chunk)**: whole scans whose first row chunk has fewer rows than a scan raise
`ZeroDivisionError` (the new chunk size is 0), although the eager run succeeds. -/
theorem C30_negation_small_chunk (c : Conv) (n : Nat) (lon lat satz : DArr α)
    (h : ScanInput c n lon.data lat.data satz.data) (hn : 0 < n) (hwf : lon.WF) (r0 : Nat) (cs : List Nat)
    (hr : lon.rowChunks = r0 :: cs) (hlt : r0 < c.scanRows) (junk junk') :
    c.lazyRun lon lat satz junk' = .error .zeroDivision ∧
      ∃ out, c.run lon.data lat.data satz.data junk = .ok out := by
  refine ⟨?_, ?_⟩
  · rw [c.lazyRun_eq]
    refine lazyInterp_zeroDivision (by cases c <;> rfl) (h.lonRows ▸ Dvd.intro_left _ rfl) ?_ hwf hr hlt
    rw [h.lonRows]
    have : 0 < c.scanRows := by cases c <;> simp [Conv.scanRows]
    exact Nat.mul_ne_zero (by omega) (by omega)
  · obtain ⟨out, e, _⟩ := run_pixel c h junk
    exact ⟨out, e⟩

/-- two 1 km scans in chunks of 5 and 15 rows -/
example (f g h : Nat → Nat → α) (junk junk') :=
  C30_negation_small_chunk .km1to250 2 ⟨⟨20, 1354, f⟩, [5, 15], [1354]⟩ ⟨⟨20, 1354, g⟩, [20], [1354]⟩
    ⟨⟨20, 1354, h⟩, [20], [1354]⟩ ⟨rfl, rfl, rfl, rfl, rfl, rfl⟩ (by omega) ⟨rfl, rfl⟩ 5 [15] rfl
    (by simp [Conv.scanRows]) junk junk'

theorem C30_negation_small_chunk_simple (c : SConv) (mc : ModisSimple.MapCoord α) (n : Nat) (lon lat : DArr α)
    (h : SInput n lon.data lat.data) (hn : 0 < n) (hwf : lon.WF) (r0 : Nat) (cs : List Nat)
    (hr : lon.rowChunks = r0 :: cs) (hlt : r0 < 10) (junk junk') :
    lazySimple1km mc (1000 / c.factor) lon lat junk' = .error .zeroDivision ∧
      ∃ out, c.run mc lon.data lat.data junk = .ok out := by
  refine ⟨?_, ?_⟩
  · refine lazyInterp_zeroDivision rfl (h.lonRows ▸ Dvd.intro_left _ rfl) ?_ hwf hr hlt
    rw [h.lonRows]; omega
  · obtain ⟨out, e, _⟩ := srun_pixel c mc h junk
    exact ⟨out, e⟩

example (mc : ModisSimple.MapCoord α) (f g : Nat → Nat → α) (junk junk') :=
  C30_negation_small_chunk_simple .km1to500 mc 3 ⟨⟨30, 12, f⟩, [9, 21], [12]⟩ ⟨⟨30, 12, g⟩, [30], [12]⟩
    ⟨by simp, rfl, rfl, rfl⟩ (by omega) ⟨rfl, rfl⟩ 9 [21] rfl (by omega) junk junk'

/-- **C30, negation (declared width)**: the simple interpolator accepts any number of columns, but the lazy result
declares `1354 * f` columns; for any other width the declared chunks are not those of the eager result. -/
theorem C30_negation_simple_width (c : SConv) (mc : ModisSimple.MapCoord α) (n : Nat) (lon lat : DArr α)
    (h : SInput n lon.data lat.data) (hw : lon.data.cols ≠ 1354) (hwf : lon.WF) (r0 : Nat) (cs : List Nat)
    (hr : lon.rowChunks = r0 :: cs) (hr0 : 10 ≤ r0) (junk junk') :
    ∃ out l, c.run mc lon.data lat.data junk = .ok out ∧ lazySimple1km mc (1000 / c.factor) lon lat junk' = .ok l ∧
      l.colChunks ≠ [out.1.cols] := by
  obtain ⟨out, e, p1, p2⟩ := srun_pixel c mc h junk
  have hfr : ∀ a ∈ [lon, lat], a.data.rows = n * 10 := by
    intro a ha
    simp only [List.mem_cons, List.not_mem_nil, or_false] at ha
    rcases ha with ha | ha
    · rw [ha, h.lonRows]
    · rw [ha, h.latRows]
  obtain ⟨c0, cl, hbd⟩ := blockdims_ok (d := n * 10) (bd := r0 / 10 * 10) (Or.inr (by omega))
  have hre : rechunkIfNeeded 10 lon [lat] = .ok ([lon, lat].map (fun a => ⟨a.data, c0 :: cl, [a.data.cols]⟩)) := by
    unfold rechunkIfNeeded
    have hmod : ¬ lon.data.rows % 10 ≠ 0 := by rw [h.lonRows]; simp
    rw [if_neg hmod, goodCol_false hwf, hr]
    simp only [Bool.and_false, Bool.false_and]
    exact rechunk_all hbd _ hfr
  have hc : rowsPerScan 1000 = .ok 10 := rfl
  have hk : finePerKm (1000 / c.factor) = .ok c.factor := by cases c <;> rfl
  have h0 : ¬ 1000 / c.factor = 0 := by cases c <;> simp [SConv.factor]
  refine ⟨out, _, e, by simp only [lazySimple1km, lazyInterp, hc, bind, Except.bind, hre, callMapBlocks, List.map_cons, if_neg h0, hk]; rfl, ?_⟩
  rw [p1.cols]
  simp only [ne_eq, List.cons.injEq, and_true]
  intro heq
  cases c <;> simp only [SConv.factor] at heq <;> omega

example (mc : ModisSimple.MapCoord α) (f g : Nat → Nat → α) (junk junk') :=
  C30_negation_simple_width .km1to500 mc 3 ⟨⟨30, 12, f⟩, [10, 20], [12]⟩ ⟨⟨30, 12, g⟩, [30], [12]⟩
    ⟨by simp, rfl, rfl, rfl⟩ (by simp) ⟨rfl, rfl⟩ 10 [20] rfl (by omega) junk junk'

end Verif.Props
