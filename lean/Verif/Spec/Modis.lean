import Verif.Model.ModisInterp

/-!
# Specification of the MODIS interpolation: one pixel at a time

The closed formula of one fine pixel, with no buffers and no loops.
-/

namespace Verif.Spec.Modis
open Verif Verif.Modis
variable {α : Type} [Trig α]

/-- A supported geometry: what the public functions build. -/
inductive Geometry : Cfg → Prop
  /-- 1 km input, `f` fine pixels per km -/
  | km1 (f : Nat) (hf : 1 ≤ f) :
      Geometry { len := 10, width := 1354, perKm := 1, f := f, fineWidth := 1354 * f, factor5 := f * 2 }
  /-- 5 km input with 270 or 271 columns, `k` fine pixels per km -/
  | km5 (k w : Nat) (hk : 1 ≤ k) (hw : w = 270 ∨ w = 271) :
      Geometry { len := 2, width := w, perKm := 5, f := k * 5, fineWidth := 1354 * k, factor5 := k * 2 }

/-- What the shapes of longitudes, latitudes and zenith angles must satisfy, with scans of `len` rows and `width` columns: without a whole
scan of zenith angles nothing is computed; otherwise at most `width` columns of zenith angles, and, if there are longitudes, at
most `width` columns of them, not more than there are of latitudes, and as many rows of latitudes as there are of longitudes in
those scans. -/
def Fits (len width : Nat) (lonR lonC latR latC satR satC : Nat) : Prop :=
  satR < len ∨ (satC ≤ width ∧ (lonR = 0 ∨ lonC = 0 ∨
    (lonC ≤ width ∧ lonC ≤ latC ∧ min lonR (satR / len * len) ≤ latR)))

/-- tie row above fine row `r` of a scan -/
def cellRow (cfg : Cfg) (r : Nat) : Nat :=
  if cfg.len = 10 then min ((r - cfg.f / 2) / cfg.f) 8 else 0

/-- tie column left of fine column `c` -/
def cellCol (cfg : Cfg) (c : Nat) : Nat :=
  if cfg.len = 10 then min (c / cfg.f) 1352 else min ((c - cfg.factor5) / cfg.f) (cfg.width - 2)

/-- cartesian position of a tie point -/
def tieXyz (lon lat : Nat → Nat → α) (i j : Nat) : α × α × α :=
  Geo.cyLonlat2xyz Geo.earthRadius (lon i j) (lat i j)

/-- component `k` of a triple -/
def comp (p : α × α × α) (k : Nat) : α := if k = 0 then p.1 else if k = 1 then p.2.1 else p.2.2

/-- track and scan coordinates of the fine pixel `(r, c)` of a scan whose first tie row is `i0` -/
def trackScan (cfg : Cfg) (satz : Nat → Nat → α) (i0 r c : Nat) : α × α :=
  let i := i0 + cellRow cfg r
  let j := cellCol cfg c
  let ea := expansionAlignment cfg.perKm (satz i j) (satz i (j + 1))
  atrackAscan cfg.f ((getCoords cfg).1.cell c) ((getCoords cfg).2.cell r) ea.1 ea.2

/-- cartesian position of the fine pixel `(r, c)` of a scan whose first tie row is `i0`, for tie positions `X` -/
def fineXyz (cfg : Cfg) (X : Nat → Nat → Nat → α) (satz : Nat → Nat → α) (i0 r c k : Nat) : α :=
  let i := i0 + cellRow cfg r
  let j := cellCol cfg c
  let ts := trackScan cfg satz i0 r c
  fineComponent ts.1 ts.2 (X i j k) (X i (j + 1) k) (X (i + 1) (j + 1) k) (X (i + 1) j k)

/-- longitude and latitude of the fine pixel `(r, c)` of a scan, for tie positions `X` -/
def scanPixel (cfg : Cfg) (X : Nat → Nat → Nat → α) (satz : Nat → Nat → α) (i0 r c : Nat) : α × α :=
  Geo.cyXyz2lonlat Geo.earthRadius Geo.cyThr true
    (fineXyz cfg X satz i0 r c 0, fineXyz cfg X satz i0 r c 1, fineXyz cfg X satz i0 r c 2)

/-- tie positions from longitudes and latitudes -/
def ties (lon lat : Nat → Nat → α) (i j k : Nat) : α := comp (tieXyz lon lat i j) k

/-- longitude and latitude of the fine pixel `(r, c)` of the whole swath -/
def pixel (cfg : Cfg) (lon lat satz : Nat → Nat → α) (r c : Nat) : α × α :=
  scanPixel cfg (ties lon lat) satz (r / (cfg.len * cfg.f) * cfg.len) (r % (cfg.len * cfg.f)) c

end Verif.Spec.Modis
