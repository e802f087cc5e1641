import Verif.Model.Relativity
/-
IERS Conventions 2010, eq. (10.12).
-/
namespace Verif.Relativity

/-- First line of (10.12): Schwarzschild. `r`, `v` are the satellite's geocentric position and velocity. -/
noncomputable def eqSchwarzschild (r v : V3) (GMe c beta gamma : ℝ) : V3 :=
  (GMe / (c ^ 2 * r.norm ^ 3)) *
    ((2 * (beta + gamma) * (GMe / r.norm) - gamma * v.dot v) * r + (2 * (1 + gamma) * (r.dot v)) * v)

/-- Second line: Lense-Thirring; `J` is the Earth's angular momentum per unit mass. -/
noncomputable def eqLenseThirring (r v J : V3) (GMe c gamma : ℝ) : V3 :=
  ((1 + gamma) * (GMe / (c ^ 2 * r.norm ^ 3))) *
    ((3 / r.norm ^ 2 * r.dot J) * r.cross v + v.cross J)

/-- Third line: de Sitter; `R`, `V` are the position and velocity of the Earth with respect to the Sun. -/
noncomputable def eqDeSitter (v R V : V3) (GMs c gamma : ℝ) : V3 :=
  (1 + 2 * gamma) * (V.cross ((-GMs / (c ^ 2 * R.norm ^ 3)) * R)).cross v

end Verif.Relativity
