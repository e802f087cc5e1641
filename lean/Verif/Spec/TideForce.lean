import Verif.Spec.GroopsDisk
import Verif.Spec.Harmonic
/-
The attraction of a tide: the gradient of the sum of the potentials of its waves, each with the gravitational constant and the radius of
its own file.
-/
namespace Verif.Groops
open Verif Verif.Doodson Verif.Tide Verif.Icgem

variable {T : Type}

/-- The potential of a gravity file up to degree and order `n`. -/
noncomputable def Gfc.potential (g : Gfc T) (md mo : Int) (n : Nat) (r : V3) : ℝ :=
  Harmonic.potential (g.gm : ℚ) (g.radius : ℚ) (g.value md mo Record.C) (g.value md mo Record.S) n n r

/-- The potential of a wave at the angle `θ`. -/
noncomputable def Wave.potential (w : Wave T) (md mo : Int) (n : Nat) (θ : ℝ) (r : V3) : ℝ :=
  w.cos.potential md mo n r * Real.cos θ + w.sin.potential md mo n r * Real.sin θ

/-- The potential of the waves, with the mean longitudes written with sidereal time and the Delaunay arguments. -/
noncomputable def wavesPotential (waves : List (Wave T)) (md mo : Int) (n : Nat) (gmst l l' F D Om : ℝ) (r : V3) : ℝ :=
  (waves.map fun w => w.potential md mo n (angle w.d gmst l l' F D Om) r).sum

/-- The potential of all the waves `dood`, of which `waves` are the major ones; the admittance of the major wave `k` at the wave `f` is
element `f` of row `k`. -/
noncomputable def allPotential (waves : List (Wave T)) (dood : List DC) (adm : List (List ℚ)) (md mo : Int) (n : Nat) (gmst l l' F D Om : ℝ)
    (r : V3) : ℝ :=
  ∑ f : Fin dood.length, ∑ k : Fin waves.length, (((adm.getD k []).getD f 0 : ℚ) : ℝ) *
    waves[k].potential md mo n (angle dood[f] gmst l l' F D Om) r

/-- Gravitational constant and radius of the files of a wave. -/
def Wave.Constants (w : Wave T) (gm re : ℚ) : Prop := w.cos.gm = gm ∧ w.sin.gm = gm ∧ w.cos.radius = re ∧ w.sin.radius = re

end Verif.Groops
