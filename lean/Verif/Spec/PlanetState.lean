import Verif.Spec.Planets
import Verif.Model.PlanetState
/-
What CSPICE is documented to compute, and what the library promises: geocentric geometric positions and
velocities in metres.
-/
namespace Verif.Planets
open Verif

/-- An ephemeris: the barycentric position [km] and velocity [km/s] of a body (by NAIF identifier) along
the axes of J2000, at a time in seconds of TDB after J2000. `none`: no data. -/
abbrev Ephemeris := Int → ℝ → Option (V3 × V3)

/-- CSPICE computes from the ephemeris: without aberration corrections, in the frame J2000, positions and
states are the differences of the barycentric ones; a body may be given by the decimal digits of its
identifier; the time scale names stand for Terrestrial Time as a Julian date and for TDB. `tdb`: seconds
of TDB after J2000 at a Julian date TT. -/
structure Documented (s : Spice) (e : Ephemeris) (tdb : ℝ → ℝ) : Prop where
  time : ∀ jd, s.unitim jd "JDTDT" "ET" = tdb jd
  pos : ∀ a b t ra va rb vb, e a t = some (ra, va) → e b t = some (rb, vb) →
    ∃ lt, s.spkezp a t "J2000" "NONE" b = some (ra - rb, lt)
  state : ∀ (a b : List Nat) t ra va rb vb, IsDecimal a → IsDecimal b →
    e (decimal a) t = some (ra, va) → e (decimal b) t = some (rb, vb) →
    ∃ lt, s.spkezr a t "J2000" "NONE" b = some ((ra - rb, va - vb), lt)
  pos_none : ∀ a b t, e a t = none ∨ e b t = none → s.spkezp a t "J2000" "NONE" b = none
  state_none : ∀ (a b : List Nat) t, IsDecimal a → IsDecimal b →
    e (decimal a) t = none ∨ e (decimal b) t = none → s.spkezr a t "J2000" "NONE" b = none

/-- The Julian date of an epoch: the Modified Julian Date plus 2400000.5. -/
noncomputable def jd (tt : Iau.Epoch) : ℝ := (tt.mjd : ℝ) + tt.f + 2400000.5

/-- Kilometres to metres. -/
noncomputable def metres (v : V3) : V3 := (1000 : ℝ) * v

end Verif.Planets
