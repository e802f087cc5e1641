import Mathlib.Analysis.SpecialFunctions.Trigonometric.Basic
/-
The IERS routines PMSDNUT2 and UTLIBR, as distributed (fortran_impl/PMSDNUT2_D0.F, fortran_impl/UTLIBR_D0.F):
libration in polar motion (microarcseconds), UT1 (microseconds) and length of day (microseconds).
`g` is GMST, the other arguments are the Delaunay arguments l, l', F, D, Ω.
-/
namespace Verif.EopTides.Ref

/-- A row: multipliers of (GMST + π, l, l', F, D, Ω) and four amplitudes in 1/100 of the routine's unit. -/
structure Row where
  g : Int
  l : Int
  l' : Int
  F : Int
  D : Int
  Om : Int
  a : Int
  b : Int
  c : Int
  e : Int
deriving DecidableEq

/-- `ANGLE` of the routines. -/
noncomputable def Row.angle (r : Row) (g l l' F D Om : ℝ) : ℝ :=
  r.g * (g + Real.pi) + r.l * l + r.l' * l' + r.F * F + r.D * D + r.Om * Om

/-- `XS, XC, YS, YC` of PMSDNUT2, terms 16 to 25. -/
def pmsdnut2 : List Row := [
  ⟨1, -1, 0, -2,  0, -1,   -40,   30,   -30,   -40⟩,
  ⟨1, -1, 0, -2,  0, -2,  -230,  130,  -130,  -230⟩,
  ⟨1,  1, 0, -2, -2, -2,   -40,   30,   -30,   -40⟩,
  ⟨1,  0, 0, -2,  0, -1,  -210,  120,  -120,  -210⟩,
  ⟨1,  0, 0, -2,  0, -2, -1140,  650,  -650, -1140⟩,
  ⟨1, -1, 0,  0,  0,  0,    80,  -50,    50,    80⟩,
  ⟨1,  0, 0, -2,  2, -2,  -480,  270,  -270,  -480⟩,
  ⟨1,  0, 0,  0,  0,  0,  1430, -820,   820,  1430⟩,
  ⟨1,  0, 0,  0,  0, -1,   190, -110,   110,   190⟩,
  ⟨1,  1, 0,  0,  0,  0,    80,  -40,    40,    80⟩]

/-- `DUT1S, DUT1C, DLODS, DLODC` of UTLIBR. -/
def utlibr : List Row := [
  ⟨2, -2,  0, -2,  0, -2,   5,   -3,   -30,   -60⟩,
  ⟨2,  0,  0, -2, -2, -2,   6,   -3,   -40,   -70⟩,
  ⟨2, -1,  0, -2,  0, -2,  35,  -20,  -240,  -410⟩,
  ⟨2,  1,  0, -2, -2, -2,   7,   -4,   -50,   -80⟩,
  ⟨2,  0,  0, -2,  0, -1,  -7,    4,    50,    80⟩,
  ⟨2,  0,  0, -2,  0, -2, 175, -101, -1220, -2130⟩,
  ⟨2,  1,  0, -2,  0, -2,  -5,    3,    30,    60⟩,
  ⟨2,  0, -1, -2,  2, -2,   4,   -3,   -30,   -60⟩,
  ⟨2,  0,  0, -2,  2, -2,  76,  -44,  -550,  -960⟩,
  ⟨2,  0,  0,  0,  0,  0,  21,  -12,  -150,  -260⟩,
  ⟨2,  0,  0,  0,  0, -1,   6,   -4,   -40,   -80⟩]

/-- First output: `Σ a sin(ANGLE) + b cos(ANGLE)`. -/
noncomputable def first (rows : List Row) (g l l' F D Om : ℝ) : ℝ :=
  (rows.map fun r => r.a / 100 * Real.sin (r.angle g l l' F D Om) +
    r.b / 100 * Real.cos (r.angle g l l' F D Om)).sum

/-- Second output: `Σ c sin(ANGLE) + e cos(ANGLE)`. -/
noncomputable def second (rows : List Row) (g l l' F D Om : ℝ) : ℝ :=
  (rows.map fun r => r.c / 100 * Real.sin (r.angle g l l' F D Om) +
    r.e / 100 * Real.cos (r.angle g l l' F D Om)).sum

end Verif.EopTides.Ref
