import Verif.Spec.Eop
import Verif.Spec.CostgTide
import Verif.Spec.Gcrs
import Verif.Model.EopTides
/-
Earth orientation at an epoch from the records of a file, after the IERS Conventions (2010), Chapters 5 and 8: the zonal tides are removed
from UT1 and the length of day of the records, what remains is interpolated, and the zonal, libration and ocean tides at the epoch are added.
The tables of amplitudes are those of Model/EopTides. `T` is in centuries of TT since J2000, `t` a Modified Julian Date TT.
-/
namespace Verif.Orient
open Verif Verif.EopTides Polynomial

/-- Julian centuries since J2000 of a Modified Julian Date. -/
noncomputable def centuries (t : ℝ) : ℝ := (t - 51544.5) / 36525

/-- The Delaunay arguments in radians. -/
noncomputable def argL (T : ℝ) : ℝ := PoleTide.rad (Fundarg.lPoly T)
noncomputable def argLp (T : ℝ) : ℝ := PoleTide.rad (Fundarg.lpPoly T)
noncomputable def argF (T : ℝ) : ℝ := PoleTide.rad (Fundarg.fPoly T)
noncomputable def argD (T : ℝ) : ℝ := PoleTide.rad (Fundarg.dPoly T)
noncomputable def argOm (T : ℝ) : ℝ := PoleTide.rad (Fundarg.omPoly T)

/-- Phase of a zonal tide. -/
noncomputable def zonalPhase (e : ZEntry) (T : ℝ) : ℝ :=
  e.lm * argL T + e.lpm * argLp T + e.fm * argF T + e.dm * argD T + e.om * argOm T

/-- Zonal tides in UT1 and in the length of day, seconds (Table 8.1; its units are 1e-4 s and 1e-5 s). -/
noncomputable def zonalUT1 (T : ℝ) : ℝ :=
  (table81.map fun e => e.dut1B / 1e8 * Real.sin (zonalPhase e T) + e.dut1C / 1e8 * Real.cos (zonalPhase e T)).sum
noncomputable def zonalLod (T : ℝ) : ℝ :=
  (table81.map fun e => e.dlodB / 1e9 * Real.cos (zonalPhase e T) + e.dlodC / 1e9 * Real.sin (zonalPhase e T)).sum

/-- Phase of a diurnal or semidiurnal tide at sidereal time `g`: Doodson's multipliers of mean lunar time, the longitudes of Moon, Sun and
lunar perigee, minus that of the lunar node, and that of solar perigee. -/
noncomputable def dailyPhase (e : DEntry) (T g : ℝ) : ℝ :=
  let s := argF T + argOm T
  e.dn.i0 * (g + Real.pi - s) + e.dn.i1 * s + e.dn.i2 * (s - argD T) + e.dn.i3 * (s - argL T) + e.dn.i4 * (-argOm T) +
    e.dn.i5 * (s - argD T - argLp T)

/-- A diurnal and semidiurnal variation with amplitudes `a` (sine) and `b` (cosine), 1e-8 of the unit, summed over libration (Tables 5.1a and
5.1b) and ocean tides (Tables 8.2 and 8.3). -/
noncomputable def daily (a b : DEntry → Int) (T g : ℝ) : ℝ :=
  ((table5NoLongTides ++ table8).map fun e => a e / 1e8 * Real.sin (dailyPhase e T g) + b e / 1e8 * Real.cos (dailyPhase e T g)).sum

/-- UT1-TAI of a record without zonal tides, and its length of day. -/
noncomputable def ut1R (r : Eop.Rec ℚ) : ℝ := (r.dut : ℝ) - (r.dat : ℝ) - zonalUT1 (centuries r.t)
noncomputable def lodR (r : Eop.Rec ℚ) : ℝ := (r.lod : ℝ) - zonalLod (centuries r.t)

/-- `val` is the value at `t` of the polynomial of degree less than the number of records that takes the values `q` at their epochs. -/
def Through (w : List (Eop.Rec ℚ)) (q : Eop.Rec ℚ → ℝ) (t val : ℝ) : Prop :=
  ∃ p : ℝ[X], p.degree < w.length ∧ (∀ r ∈ w, p.eval (r.t : ℝ) = q r) ∧ val = p.eval t

/-- The records that count: as many on each side of `t` as there are on both, at most three. -/
structure Nearest (recs : List (Eop.Rec ℚ)) (t : ℝ) (l r : List (Eop.Rec ℚ)) : Prop where
  split : ∃ pre post, recs = pre ++ l ++ r ++ post ∧ (l.length = 3 ∨ pre = [] ∨ post = [])
  left : ∀ x ∈ l, (x.t : ℝ) ≤ t
  right : ∀ x ∈ r, t < (x.t : ℝ)
  same : l.length = r.length
  some : 1 ≤ l.length
  most : l.length ≤ 3

/-- Greenwich mean sidereal time at `t` if UT1-TAI is `d` seconds. -/
noncomputable def sidereal (t d : ℝ) : ℝ :=
  Iau.eraIers (t - 51544.5 + (d - 32.184) / 86400) + PoleTide.rad (Iau.gmstPoly (centuries t))

/-- The pole (arcseconds), UT1-TAI and the length of day (seconds), the corrections of the CIP (arcseconds). -/
structure Eops where
  xp : ℝ
  yp : ℝ
  ut1Tai : ℝ
  lod : ℝ
  dX : ℝ
  dY : ℝ

/-- The Earth orientation at `t`, from the records `w`, with sidereal time `g` for the diurnal and semidiurnal variations. -/
structure Effective (w : List (Eop.Rec ℚ)) (t g : ℝ) (e : Eops) : Prop where
  xp : Through w (fun r => r.xp) t (e.xp - daily DEntry.xps DEntry.xpc (centuries t) g)
  yp : Through w (fun r => r.yp) t (e.yp - daily DEntry.yps DEntry.ypc (centuries t) g)
  ut1 : Through w ut1R t (e.ut1Tai - zonalUT1 (centuries t) - daily DEntry.ut1s DEntry.ut1c (centuries t) g)
  lod : Through w lodR t (e.lod - zonalLod (centuries t) - daily DEntry.lods DEntry.lodc (centuries t) g)
  dX : Through w (fun r => r.dX) t e.dX
  dY : Through w (fun r => r.dY) t e.dY

/-- The Earth orientation at `t` from the records: sidereal time comes from UT1 without zonal tides, linear between the neighbours `a`, `b`. -/
def OrientedAt (recs : List (Eop.Rec ℚ)) (t : ℝ) (e : Eops) : Prop :=
  ∃ l r a b, Nearest recs t l r ∧ (∃ pre post, recs = pre ++ a :: b :: post) ∧ (a.t : ℝ) ≤ t ∧ t < (b.t : ℝ) ∧
    Effective (l ++ r) t (sidereal t (ut1R a + (ut1R b - ut1R a) * ((t - a.t) / (b.t - a.t)))) e

/-- A row of the benchmark (columns pole, TIO locator, UT1-UTC, length of day, CIP, CIO locator; angles in radians) agrees with the Earth
orientation `e` at `t`: to 0.1 arcseconds and 10 seconds. `dat` is TAI-UTC. -/
def Accepted (t dat : ℝ) (row : List ℚ) (e : Eops) : Prop :=
  let T := centuries t
  let near : ℕ → ℝ → Prop := fun i v => |((row.getD i 0 : ℚ) : ℝ) - v| * (648000 / Real.pi) < 0.1
  near 0 (EarthRot.arcsec e.xp) ∧ near 1 (EarthRot.arcsec e.yp) ∧ near 2 (EarthRot.tioLocator T) ∧
    |((row.getD 3 0 : ℚ) : ℝ) - (e.ut1Tai + dat)| < 10 ∧ |((row.getD 4 0 : ℚ) : ℝ) - e.lod| < 10 ∧
    near 5 (EarthRot.poleX T + EarthRot.arcsec e.dX) ∧ near 6 (EarthRot.poleY T + EarthRot.arcsec e.dY) ∧ near 7 (EarthRot.locator T)

end Verif.Orient
