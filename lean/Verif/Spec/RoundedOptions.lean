import Verif.Model.RoundedOptions
import Verif.Spec.RoundedOrient
import Verif.Spec.RoundedState
import Verif.Spec.RoundedEopTides
/-
The celestial position and velocity of a point given in the terrestrial frame, from a series of Earth orientation parameters on.
-/
namespace Verif.RoundedOptions
open Verif Verif.Eop Verif.Rounding Verif.Iau Verif.RoundedOrient Verif.RoundedState
open Verif.EarthRot (poleX poleY locator tioLocator arcsec EopRec earthRate)

/-- `M x` takes terrestrial to celestial coordinates `x` seconds after the epoch that is `D` days of UT1 after J2000: Q R W of the Conventions for the record, where
the Earth turns at the rate that belongs to the length of day and all other angles are held. -/
def FrameOf (tt : Epoch) (D : ℝ) (e : EopRec) (M : ℝ → M3) : Prop :=
  ∃ d ε, Real.sin d * Real.cos ε = poleX tt.jcenturies + arcsec e.dX ∧ Real.sin d * Real.sin ε = poleY tt.jcenturies + arcsec e.dY ∧ 0 ≤ d ∧ d ≤ Real.pi / 2 ∧
    ∀ x, M x = EarthRot.celestial d ε (locator tt.jcenturies) * EarthRot.spin (eraIers D + earthRate e.lod * x) *
      EarthRot.polarMotion (tioLocator tt.jcenturies) (arcsec e.xp) (arcsec e.yp)

/-- The point with terrestrial position `r` and velocity `v` at the epoch has celestial position `S.1` and velocity `S.2`: for the record that exact arithmetic
interpolates in the series, with its tidal variations. -/
def Truth (dat : ℝ → ℝ) (s : Series ℝ) (tt : Epoch) (old : Rec ℝ) (r v : V3) (S : V3 × V3) : Prop :=
  ∃ st e s1 d s2 M, s.interpolate dat ((tt.mjd : ℝ) + tt.f) old 5 = .ok (st, e, s1) ∧ s1.approxDut1 dat ((tt.mjd : ℝ) + tt.f) = .ok (.linear, d, s2) ∧
    FrameOf tt (ut1Days dat tt (reference dat tt d e).dut) (Orient.eopRec (reference dat tt d e)) M ∧ Celestial M r v S

/-- The results of the four options: close to the truth, and closer to each other. -/
def Good (dat : ℝ → ℝ) (s : Series ℝ) (x : Row) (o : Out) : Prop :=
  (∃ S, Truth dat s x.tt x.old x.ri x.vi S ∧
    Close3 (3.8e-12 * size x.ri) o.p1 S.1 ∧ Close3 (4e-12 * size x.ri) o.p2 S.1 ∧ Close3 (4.3e-12 * size x.ri) o.p3 S.1 ∧ Close3 (3.8e-12 * size x.ri) o.p4 S.1 ∧
    Close3 (4.3e-12 * size x.vi + 1.3e-15 * size x.ri) o.v3 S.2 ∧ Close3 (3.8e-12 * size x.vi + 1.2e-15 * size x.ri) o.v4 S.2) ∧
  o.p4 = o.p1 ∧ Close3 (2e-13 * size x.ri) o.p1 o.p2 ∧ Close3 (5e-13 * size x.ri) o.p4 o.p3 ∧ Close3 (5e-13 * size x.vi + 1e-16 * size x.ri) o.v4 o.v3

/-- The record without the zonal tides at its epoch, which are in 1e-6 of its units. -/
noncomputable def withoutZonal (r : Rec ℝ) : Rec ℝ :=
  let Z := EopTides.deopZonalTide (delaunay ((r.t - 51544.5) / 36525))
  { r with dut := r.dut - Z.dut1 * 1e-6, lod := r.lod - Z.dlod * 1e-6 }

/-- The series without the zonal tides. -/
noncomputable def smooth (s : Series ℝ) : Series ℝ := { s with vec := s.vec.map withoutZonal }

/-- A series as it is read: a record for every day, within a century of J2000; pole coordinates and corrections within an arcsecond, UT1-UTC within a second, length of
day within 0.01 s, ΔAT within 90 s; the position of the last query is one in the series. -/
structure Read (cents : ℝ → ℝ) (s : Series ℝ) (t0 : ℝ) : Prop where
  cache : s.CacheOk
  daily : ∀ i (hi : i < s.vec.length), s.vec[i].t = t0 + i
  pole : ∀ r ∈ s.vec, |r.xp| ≤ 1 ∧ |r.yp| ≤ 1 ∧ |r.dX| ≤ 1 ∧ |r.dY| ≤ 1
  ut1 : ∀ r ∈ s.vec, |r.dut| ≤ 1 ∧ |r.lod| ≤ 0.01 ∧ |r.dat| ≤ 90
  time : ∀ r ∈ s.vec, RoundedEopTides.Centuries cents r.t

end Verif.RoundedOptions
