import Verif.Spec.CipX
import Verif.Spec.CipY
import Verif.Spec.Angle
import Mathlib.Analysis.SpecialFunctions.Trigonometric.Basic
/-
The developments of the IERS Conventions (2010), Equation 5.16, in microarcseconds:
X and Y of the CIP as a polynomial in t plus `Σ_j Σ_i [(a_s,j)_i t^j sin(ARG) + (a_c,j)_i t^j cos(ARG)]`.
`F i`, i = 0..13, are the fundamental arguments l, l', F, D, Ω, L_Me, L_Ve, L_E, L_Ma, L_J, L_Sa, L_U,
L_Ne, p_A in radians; `t` is in Julian centuries since J2000.
-/
namespace Verif.Cip.Spec

/-- ARGUMENT: `Σ N_i F_i` over the fourteen arguments. -/
noncomputable def Term.argument (k : Term) (F : ℕ → ℝ) : ℝ :=
  ((List.range 14).map fun i => (k.n.getD i 0 : ℝ) * F i).sum

/-- A term without its power of t. -/
noncomputable def Term.value (k : Term) (F : ℕ → ℝ) : ℝ :=
  k.s / 100 * Real.sin (k.argument F) + k.c / 100 * Real.cos (k.argument F)

/-- Sum of the terms of one degree. -/
noncomputable def total (l : List Term) (F : ℕ → ℝ) : ℝ := (l.map fun k => k.value F).sum

/-- X coordinate of the CIP. -/
noncomputable def X (F : ℕ → ℝ) (t : ℝ) : ℝ :=
  -16617 + 2004191898 * t - 429782.9 * t ^ 2 - 198618.34 * t ^ 3 + 7.578 * t ^ 4 + 5.9285 * t ^ 5 +
    (total tableX0 F + total tableX1 F * t + total tableX2 F * t ^ 2 + total tableX3 F * t ^ 3 +
      total tableX4 F * t ^ 4)

/-- Y coordinate of the CIP. -/
noncomputable def Y (F : ℕ → ℝ) (t : ℝ) : ℝ :=
  -6951 - 25896 * t - 22407274.7 * t ^ 2 + 1900.59 * t ^ 3 + 1112.526 * t ^ 4 + 0.1358 * t ^ 5 +
    (total tableY0 F + total tableY1 F * t + total tableY2 F * t ^ 2 + total tableY3 F * t ^ 3 +
      total tableY4 F * t ^ 4)

/-- The fourteen fundamental arguments (Equations 5.43 and 5.44) in radians, not reduced to one turn. -/
noncomputable def args (t : ℝ) (i : ℕ) : ℝ :=
  match i with
  | 0 => Fundarg.lPoly t * (2 * Real.pi / 1296000)
  | 1 => Fundarg.lpPoly t * (2 * Real.pi / 1296000)
  | 2 => Fundarg.fPoly t * (2 * Real.pi / 1296000)
  | 3 => Fundarg.dPoly t * (2 * Real.pi / 1296000)
  | 4 => Fundarg.omPoly t * (2 * Real.pi / 1296000)
  | 5 => 4.402608842 + 2608.7903141574 * t
  | 6 => 3.176146697 + 1021.3285546211 * t
  | 7 => 1.753470314 + 628.3075849991 * t
  | 8 => 6.203480913 + 334.0612426700 * t
  | 9 => 0.599546497 + 52.9690962641 * t
  | 10 => 0.874016757 + 21.3299104960 * t
  | 11 => 5.481293872 + 7.4781598567 * t
  | 12 => 5.311886287 + 3.8133035638 * t
  | 13 => 0.024381750 * t + 0.00000538691 * t ^ 2
  | _ => 0

/-- Microarcseconds in radians. -/
noncomputable def uas (x : ℝ) : ℝ := x / 1000000 / 3600 * (Real.pi / 180)

end Verif.Cip.Spec
