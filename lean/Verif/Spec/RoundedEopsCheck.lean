import Verif.Model.RoundedEopsCheck
import Verif.Spec.RoundedOptions
/-
Earth orientation at an epoch, and when a line agrees with it.
-/
namespace Verif.RoundedEops
open Verif Verif.Eop Verif.Rounding Verif.RoundedOrient
open Verif.EarthRot (poleX poleY locator tioLocator arcsec)

/-- Radians to arcseconds, to a few units in the last place. -/
def RadToSec (r2s : ℝ → ℝ) : Prop := ∀ x, |r2s x - x * (648000 / Real.pi)| ≤ 4 * u * |x * (648000 / Real.pi)|

/-- The Earth orientation of the Conventions at the epoch: the record that exact arithmetic interpolates in the series, with its tidal variations; the CIP with the
corrections of the record; the locators. -/
def Orientation (dat : ℝ → ℝ) (s : Series ℝ) (old : Rec ℝ) (tt : Iau.Epoch) (L : Line) : Prop :=
  ∃ st r s1 d s2, s.interpolate dat ((tt.mjd : ℝ) + tt.f) old 5 = .ok (st, r, s1) ∧ s1.approxDut1 dat ((tt.mjd : ℝ) + tt.f) = .ok (.linear, d, s2) ∧
    L = ⟨arcsec (reference dat tt d r).xp, arcsec (reference dat tt d r).yp, tioLocator tt.jcenturies, (reference dat tt d r).dut, (reference dat tt d r).lod,
      poleX tt.jcenturies + arcsec r.dX, poleY tt.jcenturies + arcsec r.dY, locator tt.jcenturies⟩

/-- A computed line against the exact one. -/
structure CloseTo (o L : Line) : Prop where
  xp : |o.xp - L.xp| ≤ 5e-17
  yp : |o.yp - L.yp| ≤ 5e-17
  sp : |o.sp - L.sp| ≤ 1e-24
  dut : |o.dut - L.dut| ≤ 1.3e-9
  lod : |o.lod - L.lod| ≤ 3e-11
  X : |o.X - L.X| ≤ 2.2e-15
  Y : |o.Y - L.Y| ≤ 2.2e-15
  s : |o.s - L.s| ≤ 4e-16

/-- A line of the table agrees with the Earth orientation `L` to 0.1 arcseconds and 10 s, widened (`k = 1`) or narrowed (`k = -1`) by 1e-9 arcseconds and 1e-8 s. -/
structure Agrees (k : ℝ) (c L : Line) : Prop where
  xp : |c.xp - L.xp| * (648000 / Real.pi) < 0.1 + k * 1e-9
  yp : |c.yp - L.yp| * (648000 / Real.pi) < 0.1 + k * 1e-9
  sp : |c.sp - L.sp| * (648000 / Real.pi) < 0.1 + k * 1e-9
  dut : |c.dut - L.dut| < 10 + k * 1e-8
  lod : |c.lod - L.lod| < 10 + k * 1e-8
  X : |c.X - L.X| * (648000 / Real.pi) < 0.1 + k * 1e-9
  Y : |c.Y - L.Y| * (648000 / Real.pi) < 0.1 + k * 1e-9
  s : |c.s - L.s| * (648000 / Real.pi) < 0.1 + k * 1e-9

end Verif.RoundedEops
