import Mathlib.Analysis.SpecialFunctions.Trigonometric.Basic
/-
The development of s + XY/2 of the IERS Conventions (2010), Section 5.5.6 (as in the IAU SOFA routine S06),
in microarcseconds. Only eight of the fundamental arguments occur: l, l', F, D, Ω, L_Ve, L_E, p_A.
-/
namespace Verif.Cip.Cio

/-- Multipliers of l, l', F, D, Ω, L_Ve, L_E, p_A; coefficients of sin and cos in hundredths of a
microarcsecond. -/
structure Term where
  l : Int
  l' : Int
  F : Int
  D : Int
  Om : Int
  Ve : Int
  E : Int
  pA : Int
  s : Int
  c : Int

def s0 : List Term := [
  ⟨0, 0,  0,  0,  1,  0,   0,  0, -264073, 39⟩,
  ⟨0, 0,  0,  0,  2,  0,   0,  0,   -6353,  2⟩,
  ⟨0, 0,  2, -2,  3,  0,   0,  0,   -1175, -1⟩,
  ⟨0, 0,  2, -2,  1,  0,   0,  0,   -1121, -1⟩,
  ⟨0, 0,  2, -2,  2,  0,   0,  0,     457,  0⟩,
  ⟨0, 0,  2,  0,  3,  0,   0,  0,    -202,  0⟩,
  ⟨0, 0,  2,  0,  1,  0,   0,  0,    -198,  0⟩,
  ⟨0, 0,  0,  0,  3,  0,   0,  0,     172,  0⟩,
  ⟨0, 1,  0,  0,  1,  0,   0,  0,     141,  1⟩,
  ⟨0, 1,  0,  0, -1,  0,   0,  0,     126,  1⟩,
  ⟨1, 0,  0,  0, -1,  0,   0,  0,      63,  0⟩,
  ⟨1, 0,  0,  0,  1,  0,   0,  0,      63,  0⟩,
  ⟨0, 1,  2, -2,  3,  0,   0,  0,     -46,  0⟩,
  ⟨0, 1,  2, -2,  1,  0,   0,  0,     -45,  0⟩,
  ⟨0, 0,  4, -4,  4,  0,   0,  0,     -36,  0⟩,
  ⟨0, 0,  1, -1,  1, -8,  12,  0,      24, 12⟩,
  ⟨0, 0,  2,  0,  0,  0,   0,  0,     -32,  0⟩,
  ⟨0, 0,  2,  0,  2,  0,   0,  0,     -28,  0⟩,
  ⟨1, 0,  2,  0,  3,  0,   0,  0,     -27,  0⟩,
  ⟨1, 0,  2,  0,  1,  0,   0,  0,     -26,  0⟩,
  ⟨0, 0,  2, -2,  0,  0,   0,  0,      21,  0⟩,
  ⟨0, 1, -2,  2, -3,  0,   0,  0,     -19,  0⟩,
  ⟨0, 1, -2,  2, -1,  0,   0,  0,     -18,  0⟩,
  ⟨0, 0,  0,  0,  0,  8, -13, -1,      10, -5⟩,
  ⟨0, 0,  0,  2,  0,  0,   0,  0,     -15,  0⟩,
  ⟨2, 0, -2,  0, -1,  0,   0,  0,      14,  0⟩,
  ⟨0, 1,  2, -2,  2,  0,   0,  0,      14,  0⟩,
  ⟨1, 0,  0, -2,  1,  0,   0,  0,     -14,  0⟩,
  ⟨1, 0,  0, -2, -1,  0,   0,  0,     -14,  0⟩,
  ⟨0, 0,  4, -2,  4,  0,   0,  0,     -13,  0⟩,
  ⟨0, 0,  2, -2,  4,  0,   0,  0,      11,  0⟩,
  ⟨1, 0, -2,  0, -3,  0,   0,  0,     -11,  0⟩,
  ⟨1, 0, -2,  0, -1,  0,   0,  0,     -11,  0⟩]

def s1 : List Term := [
  ⟨0, 0,  0,  0,  2,  0,   0,  0,  -7, 357⟩,
  ⟨0, 0,  0,  0,  1,  0,   0,  0, 173,  -3⟩,
  ⟨0, 0,  2, -2,  3,  0,   0,  0,   0,  48⟩]

def s2 : List Term := [
  ⟨0, 0,  0,  0,  1,  0,   0,  0, 74352, -17⟩,
  ⟨0, 0,  2, -2,  2,  0,   0,  0,  5691,   6⟩,
  ⟨0, 0,  2,  0,  2,  0,   0,  0,   984,  -1⟩,
  ⟨0, 0,  0,  0,  2,  0,   0,  0,  -885,   1⟩,
  ⟨0, 1,  0,  0,  0,  0,   0,  0,  -638,  -5⟩,
  ⟨1, 0,  0,  0,  0,  0,   0,  0,  -307,   0⟩,
  ⟨0, 1,  2, -2,  2,  0,   0,  0,   223,   0⟩,
  ⟨0, 0,  2,  0,  1,  0,   0,  0,   167,   0⟩,
  ⟨1, 0,  2,  0,  2,  0,   0,  0,   130,   0⟩,
  ⟨0, 1, -2,  2, -2,  0,   0,  0,    93,   0⟩,
  ⟨1, 0,  0, -2,  0,  0,   0,  0,    68,   0⟩,
  ⟨0, 0,  2, -2,  1,  0,   0,  0,   -55,   0⟩,
  ⟨1, 0, -2,  0, -2,  0,   0,  0,    53,   0⟩,
  ⟨0, 0,  0,  2,  0,  0,   0,  0,   -27,   0⟩,
  ⟨1, 0,  0,  0,  1,  0,   0,  0,   -27,   0⟩,
  ⟨1, 0, -2, -2, -2,  0,   0,  0,   -26,   0⟩,
  ⟨1, 0,  0,  0, -1,  0,   0,  0,   -25,   0⟩,
  ⟨1, 0,  2,  0,  1,  0,   0,  0,    22,   0⟩,
  ⟨2, 0,  0, -2,  0,  0,   0,  0,   -21,   0⟩,
  ⟨2, 0, -2,  0, -1,  0,   0,  0,    20,   0⟩,
  ⟨0, 0,  2,  2,  2,  0,   0,  0,    17,   0⟩,
  ⟨2, 0,  2,  0,  2,  0,   0,  0,    13,   0⟩,
  ⟨2, 0,  0,  0,  0,  0,   0,  0,   -13,   0⟩,
  ⟨1, 0,  2, -2,  2,  0,   0,  0,   -12,   0⟩,
  ⟨0, 0,  2,  0,  0,  0,   0,  0,   -11,   0⟩]

def s3 : List Term := [
  ⟨0, 0,  0,  0,  1,  0,   0,  0, 30, -2342⟩,
  ⟨0, 0,  2, -2,  2,  0,   0,  0, -3,  -146⟩,
  ⟨0, 0,  2,  0,  2,  0,   0,  0, -1,   -25⟩,
  ⟨0, 0,  0,  0,  2,  0,   0,  0,  0,    23⟩]

def s4 : List Term := [
  ⟨0, 0,  0,  0,  1,  0,   0,  0, -26, -1⟩]

/-- Sum of the terms of one degree. -/
noncomputable def total (k : List Term) (l l' F D Om Ve E pA : ℝ) : ℝ :=
  (k.map fun k =>
    k.s / 100 * Real.sin (k.l * l + k.l' * l' + k.F * F + k.D * D + k.Om * Om + k.Ve * Ve + k.E * E + k.pA * pA) +
    k.c / 100 * Real.cos (k.l * l + k.l' * l' + k.F * F + k.D * D + k.Om * Om + k.Ve * Ve + k.E * E + k.pA * pA)).sum

/-- The development of s + XY/2. -/
noncomputable def development (t l l' F D Om Ve E pA : ℝ) : ℝ :=
  94 + 3808.65 * t - 122.68 * t ^ 2 - 72574.11 * t ^ 3 + 27.98 * t ^ 4 + 15.62 * t ^ 5 +
    (total s0 l l' F D Om Ve E pA + total s1 l l' F D Om Ve E pA * t + total s2 l l' F D Om Ve E pA * t ^ 2 +
      total s3 l l' F D Om Ve E pA * t ^ 3 + total s4 l l' F D Om Ve E pA * t ^ 4)

end Verif.Cip.Cio
