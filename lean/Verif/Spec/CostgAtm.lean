import Verif.Spec.CostgTide
import Verif.Spec.Aod1b
import Verif.Spec.Aod1bHeader
import Verif.Spec.Tide
/-
Tidal files of AOD1B: a header that names the wave, coefficients of the cosine and of the sine; their potential.
-/
namespace Verif.Aod1b
open Verif Verif.Aod1b.Head Verif.Chars

/-- The contents of a tidal file: header with the wave, gravitational constant and radius, the two blocks. -/
structure TideFile (T : Type) where
  header : List (List Char)
  settings : List (Setting T)
  wave : Doodson.Wave
  gm : ℚ
  radius : ℚ
  cosLines : List (List Char)
  sinLines : List (List Char)
  cosRows : List Row
  sinRows : List Row
  tail : List Char

variable {T : Type}

/-- The text of the file. -/
def TideFile.text (f : TideFile T) : List Char :=
  unlines f.header ++ ("END OF HEADER\n".toList ++ (unlines f.cosLines ++ (unlines f.sinLines ++ f.tail)))

/-- The file is well formed, with coefficients of degree and order `n` announced. -/
structure TideFile.Ok (date : List Char → Option T) (addNs : T → Int → T) (newYear : Int → T) (unset : T) (n : Nat) (f : TideFile T) : Prop where
  header : Head.Holds date addNs newYear unset f.header f.settings
  short : f.header.length ≤ 98
  agency : Once Setting.agency? f.settings
  satellite : Once Setting.satellite? f.settings
  sensor : Once Setting.sensor? f.settings
  level : Once Setting.level? f.settings
  pressure : Once Setting.pressure? f.settings
  degree : ∃ d, lastOf Setting.maxDegree? none f.settings = some d ∧ (n : Int) ≤ d
  sets : ∃ k, lastOf Setting.dataSets? none f.settings = some k
  wave : lastOf Setting.wave? none f.settings = some f.wave
  gm : lastOf Setting.gm? none f.settings = some f.gm
  radius : lastOf Setting.radius? none f.settings = some f.radius
  cos : TidalBlock true "DATA SET 01:".toList "COEFFICIENTS OF TYPE cos".toList n n f.cosLines f.cosRows
  sin : TidalBlock true "DATA SET 02:".toList "COEFFICIENTS OF TYPE sin".toList n n f.sinLines f.sinRows
  tail : ShortLine f.tail
  triangle : ∀ r ∈ f.cosRows ++ f.sinRows, r.In n n → r.Triangle

/-- The potential of the wave at the angle `θ`, terms up to degree and order `N` of those up to `n`. -/
noncomputable def TideFile.potential (f : TideFile T) (n N : Nat) (θ : ℝ) (r : V3) : ℝ :=
  Harmonic.potential (f.gm : ℚ) (f.radius : ℚ) (lastValue n n Row.C f.cosRows) (lastValue n n Row.S f.cosRows) N N r * Real.cos θ +
    Harmonic.potential (f.gm : ℚ) (f.radius : ℚ) (lastValue n n Row.C f.sinRows) (lastValue n n Row.S f.sinRows) N N r * Real.sin θ

/-- The potential of the waves; the phase of a wave is a multiple of 90 degrees. -/
noncomputable def filesPotential (files : List (TideFile T)) (n N : Nat) (gmst l l' F D Om : ℝ) (r : V3) : ℝ :=
  (files.map fun f => f.potential n N (Tide.angle f.wave.d gmst l l' F D Om + f.wave.d.pifac * (Real.pi / 2)) r).sum

end Verif.Aod1b
