import Verif.Spec.Chars
import Verif.Spec.PlanetState
import Verif.Spec.Relativity
import Verif.Spec.PoleTide
import Verif.Spec.Harmonic
import Mathlib.Algebra.Order.Floor.Ring
import Mathlib.Data.Rat.Floor
/-
Benchmark files: tables of numbers, the first column of which is the epoch, between other lines.
-/
namespace Verif.Costg
open Verif.Chars

/-- The lines of a text; the last one may lack its newline. -/
def IsLines (ls : List (List Char)) (t : List Char) : Prop :=
  (∀ l ∈ ls, '\n' ∉ l) ∧
    (t = ls.flatMap (· ++ ['\n']) ∨
      ∃ init last, ls = init ++ [last] ∧ last ≠ [] ∧ t = init.flatMap (· ++ ['\n']) ++ last)

/-- The rows of a table with `k` columns behind the epoch: lines of numbers count, lines that do not begin with `k + 1` numbers do not. -/
inductive Rows (k : Nat) : List (List Char) → List (ℚ × List ℚ) → Prop
  | nil : Rows k [] []
  | row {l ls t v rs} : LineIs l (t :: v) → v.length = k → Rows k ls rs → Rows k (l :: ls) ((t, v) :: rs)
  | skip {l ls rs} : (¬ ∃ vals, LineHas l vals ∧ vals.length = k + 1) → Rows k ls rs → Rows k (l :: ls) rs

/-- Day and seconds of day of a Modified Julian Date. -/
def epochAt (t : ℚ) : Int × ℚ := (⌊t⌋, Int.fract t * 86400)

/-- A table in a file of which the lines are shorter than `max`, with dates that fit. -/
structure Table (max k : Nat) (text : List Char) (rs : List (ℚ × List ℚ)) : Prop where
  lines : ∃ ls, IsLines ls text ∧ (∀ l ∈ ls, l.length < max) ∧ Rows k ls rs
  dates : ∀ r ∈ rs, 0 ≤ r.1 ∧ r.1 < 2147483648

/-- Columns `i`, `i + 1`, `i + 2` as a vector. -/
def three (v : List ℚ) (i : Nat) : V3 := ⟨(v.getD i 0 : ℚ), (v.getD (i + 1) 0 : ℚ), (v.getD (i + 2) 0 : ℚ)⟩

/-- The Julian date TT of a Modified Julian Date in GPS time: GPS time is 19 s behind TAI and TT 32.184 s ahead of it. -/
noncomputable def jdTT (t : ℚ) : ℝ := (t : ℝ) + (19 + 32.184) / 86400 + 2400000.5

/-- Tidal acceleration by a body at `s` on a satellite at `r`: attraction of the satellite minus attraction of the Earth. -/
noncomputable def tide (GM : ℝ) (r s : V3) : V3 := GM * (((s - r).norm ^ 3)⁻¹ * (s - r) - (s.norm ^ 3)⁻¹ * s)

/-- IERS Conventions (10.12) for a satellite at `r`, `v` and the Sun at `R`, `V`, with the conventional constants. -/
noncomputable def conventional (r v R V : V3) : V3 :=
  Relativity.eqSchwarzschild r v 3.986004418e14 299792458 1 1 +
    Relativity.eqLenseThirring r v ⟨0, 0, 9.8e8⟩ 3.986004418e14 299792458 1 +
    Relativity.eqDeSitter v (-R) (-V) 1.32712442099e20 299792458 1

/-- Terrestrial to celestial: `m` are the rows of the rotation from celestial to terrestrial. -/
noncomputable def toCelestial (m : List ℚ) (g : V3) : V3 := g.x * three m 0 + g.y * three m 3 + g.z * three m 6

/-- Years since J2000 of an epoch. -/
noncomputable def yearsTT (t : ℚ) : ℝ := (jdTT t - 2451545) / 365.25

/-- Column `i` of the Earth orientation, an angle in radians, in arcseconds. -/
noncomputable def arcsec (v : List ℚ) (i : Nat) : ℝ := (v.getD i 0 : ℚ) * 648000 / Real.pi

/-- IERS Conventions 6.4: the coefficients of degree 2 and order 1 of the pole tide; `m1`, `m2` in arcseconds. -/
noncomputable def poleC (m1 m2 : ℝ) : ℝ := -1.333e-9 * (m1 + 0.0115 * m2)
noncomputable def poleS (m1 m2 : ℝ) : ℝ := -1.333e-9 * (m2 - 0.0115 * m1)

/-- The potential of the pole tide at an epoch, with the pole of a row of Earth orientation. -/
noncomputable def polePotential (t : ℚ) (eop : List ℚ) : V3 → ℝ :=
  let m1 := arcsec eop 0 - PoleTide.poleX (yearsTT t)
  let m2 := -(arcsec eop 1 - PoleTide.poleY (yearsTT t))
  fun r => Harmonic.harmonic 3.986004418e14 6378136.6 2 1 (poleC m1 m2) (poleS m1 m2) r

/-- The potential of the ocean pole tide from degree 2 to 180, `dt` years after J2000, with the pole of a row of Earth orientation and the
entries of the file of the Conventions. -/
noncomputable def oceanPotential (es : List PoleTide.Entry) (dt : ℝ) (eop : List ℚ) : V3 → ℝ :=
  let m1 := PoleTide.rad (arcsec eop 0 - PoleTide.poleX dt)
  let m2 := PoleTide.rad (-(arcsec eop 1 - PoleTide.poleY dt))
  let f := PoleTide.oceanFormula 7.2921151467064e-5 6378136.6 3.986004418e14 6.67428e-11 9.7803278 m1 m2
  Harmonic.potential 3.986004418e14 6378136.6
    (fun l k => if l < 2 then 0 else f l (PoleTide.entryAt es l k).ar (PoleTide.entryAt es l k).ai)
    (fun l k => if l < 2 then 0 else f l (PoleTide.entryAt es l k).br (PoleTide.entryAt es l k).bi) 180 180

end Verif.Costg
