import Verif.Model.RoundedOrient
import Verif.Spec.Angle
import Verif.Spec.RoundedEop
import Verif.Props.Rounding
import Verif.Props.Eop
import Verif.Spec.Gcrs
import Verif.Spec.RoundedGcrs
/-
What the orientation of the Earth at an epoch is to be, from an interpolated record of Earth orientation parameters.
-/
namespace Verif.RoundedOrient
open Verif Verif.Eop Verif.EopTides Verif.Rounding Verif.Fundarg Verif.Iau
open Verif.Angle (sec2rad)

/-- Days since J2000 of the UT1 epoch: TT is 32.184 s ahead of TAI, UTC is TAI minus ΔAT, UT1 is UTC plus `x`. -/
noncomputable def ut1Days (dat : ℝ → ℝ) (tt : Iau.Epoch) (x : ℝ) : ℝ :=
  tt.daysSinceJ2000 + (x - dat ((tt.mjd : ℝ) + tt.f) - 32.184) / 86400

/-- The library `datetime` is accurate: the numbers of an epoch to a few rounding errors, the epoch in UT1 to four rounding errors of a day. -/
structure Clock.Accurate (ck : Clock) (dat : ℝ → ℝ) : Prop where
  sees : ∀ e, Sees e (ck.frac e) (ck.days e) (ck.cents e)
  ut1 : ∀ tt x, |(ck.ut1 tt x).daysSinceJ2000 - ut1Days dat tt x| ≤ 4 * u

/-- A series with a record for every day, pole coordinates and corrections within an arcsecond, length of day within a second and UT1-TAI within
100 s; the position of the last query is one in the series. -/
structure Observed (s : Series ℝ) (t0 : ℝ) : Prop where
  cache : s.CacheOk
  daily : ∀ i (hi : i < s.vec.length), s.vec[i].t = t0 + i
  pole : ∀ r ∈ s.vec, |r.xp| ≤ 1 ∧ |r.yp| ≤ 1 ∧ |r.lod| ≤ 1 ∧ |r.dX| ≤ 1 ∧ |r.dY| ≤ 1
  ut1 : ∀ r ∈ s.vec, |r.dut - r.dat| ≤ 100

/-- The Delaunay arguments of the Conventions, radians. -/
noncomputable def delaunay (T : ℝ) : Fin 5 → ℝ := ![sec2rad (lPoly T), sec2rad (lpPoly T), sec2rad (fPoly T), sec2rad (dPoly T), sec2rad (omPoly T)]

/-- The interpolated record `r` with the variations by libration, ocean tides and zonal tides, which are in 1e-6 of its units. Sidereal time is that
of the approximate value `d` of UT1-UTC. -/
noncomputable def reference (dat : ℝ → ℝ) (tt : Iau.Epoch) (d : ℝ) (r : Rec ℝ) : Rec ℝ :=
  let T := tt.jcenturies
  let g := eraIers (ut1Days dat tt d) + sec2rad (gmstPoly T)
  let L := deopLibration (delaunay T) g
  let O := deopOceanTide (delaunay T) g
  let Z := deopZonalTide (delaunay T)
  { r with
    xp := r.xp + (L.dxp + O.dxp) * 1e-6
    yp := r.yp + (L.dyp + O.dyp) * 1e-6
    dut := r.dut + (L.dut1 + O.dut1 + Z.dut1) * 1e-6
    lod := r.lod + (L.dlod + O.dlod + Z.dlod) * 1e-6 }

/-- The series has a record at or before the epoch and one after it. -/
def Between (s : Series ℝ) (tt : Iau.Epoch) : Prop := (∃ r ∈ s.vec, r.t ≤ (tt.mjd : ℝ) + tt.f) ∧ ∃ r ∈ s.vec, (tt.mjd : ℝ) + tt.f < r.t

open Verif.EarthRot (poleX poleY locator tioLocator arcsec) in
/-- `q` is the rotation of the Conventions at the epoch, for the record that exact arithmetic interpolates in the series, up to `ε` in every entry. -/
def Answer (ε : ℝ) (dat : ℝ → ℝ) (s : Series ℝ) (tt : Iau.Epoch) (old : Rec ℝ) (q : Quat) : Prop :=
  ∃ st r s1 d s2 δ α, s.interpolate dat ((tt.mjd : ℝ) + tt.f) old 5 = .ok (st, r, s1) ∧ s1.approxDut1 dat ((tt.mjd : ℝ) + tt.f) = .ok (.linear, d, s2) ∧
    Real.sin δ * Real.cos α = poleX tt.jcenturies + arcsec r.dX ∧ Real.sin δ * Real.sin α = poleY tt.jcenturies + arcsec r.dY ∧
    0 ≤ δ ∧ δ ≤ Real.pi / 2 ∧
    Close ε q.mat (EarthRot.celestial δ α (locator tt.jcenturies) * EarthRot.spin (eraIers (ut1Days dat tt (reference dat tt d r).dut)) *
      EarthRot.polarMotion (tioLocator tt.jcenturies) (arcsec (reference dat tt d r).xp) (arcsec (reference dat tt d r).yp)).transpose

end Verif.RoundedOrient
