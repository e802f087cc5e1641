import Verif.Model.Mat3
import Mathlib.Analysis.SpecialFunctions.Trigonometric.Basic
/-
IERS Conventions (2010), section 5.4.1 and 5.5: [GCRS] = Q R W [ITRS].
-/
namespace Verif.EarthRot
open Verif

/-- Rotation matrices of the frame about the axes, positive angle from y to z, z to x, x to y (IERS Conventions, section 5.1). -/
noncomputable def R1 (t : ℝ) : M3 := ⟨1, 0, 0, 0, Real.cos t, Real.sin t, 0, -Real.sin t, Real.cos t⟩
noncomputable def R2 (t : ℝ) : M3 := ⟨Real.cos t, 0, -Real.sin t, 0, 1, 0, Real.sin t, 0, Real.cos t⟩
noncomputable def R3 (t : ℝ) : M3 := ⟨Real.cos t, Real.sin t, 0, -Real.sin t, Real.cos t, 0, 0, 0, 1⟩

/-- Polar motion (eq. 5.3): W = R3(-s') R2(xp) R1(yp). -/
noncomputable def polarMotion (sp xp yp : ℝ) : M3 := R3 (-sp) * R2 xp * R1 yp

/-- Earth rotation (eq. 5.5): R = R3(-ERA). -/
noncomputable def spin (era : ℝ) : M3 := R3 (-era)

/-- Celestial motion of the CIP (eq. 5.6): Q = R3(-E) R2(-d) R3(E) R3(s). -/
noncomputable def celestial (d e s : ℝ) : M3 := R3 (-e) * R2 (-d) * R3 e * R3 s

/-- A rotation: orthogonal, determinant one. -/
def IsRotation (m : M3) : Prop := m * m.transpose = 1 ∧ m.transpose * m = 1 ∧ m.det = 1

end Verif.EarthRot
