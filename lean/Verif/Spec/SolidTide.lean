import Verif.Model.SolidTide
import Verif.Spec.Legendre
import Verif.Spec.Angle
import Mathlib.Analysis.SpecialFunctions.Complex.Circle
/-
Solid Earth tide, after the IERS Conventions (2010), sections 6.2.1 and 7.1.1. Corrections are written as complex numbers ΔC - iΔS.
-/
namespace Verif.SolidTide
open Verif Verif.Legendre Verif.Doodson Verif.Iau

/-- Table 6.3, anelastic Earth. -/
noncomputable def k : ℕ → ℕ → ℂ
  | 2, 0 => 0.30190
  | 2, 1 => 0.29830 - 0.00144 * Complex.I
  | 2, 2 => 0.30102 - 0.00130 * Complex.I
  | 3, 0 => 0.093
  | 3, 1 => 0.093
  | 3, 2 => 0.093
  | 3, 3 => 0.094
  | _, _ => 0

/-- Table 6.3, `k_2m^(+)`. -/
noncomputable def kplus : ℕ → ℂ
  | 0 => -0.00089
  | 1 => -0.00080
  | 2 => -0.00057
  | _ => 0

/-- A body: mass ratio to the Earth and position in the Earth-fixed frame. -/
structure Body where
  ratio : ℝ
  pos : V3

/-- (GM_j/GM) (Re/r_j)^(n+1) Pbar_nm(sin Φ_j) e^(-imλ_j), where sin Φ = z/r and λ is the angle of (x, y). -/
noncomputable def Body.term (b : Body) (Re : ℝ) (n m : ℕ) : ℂ :=
  b.ratio * (Re / b.pos.norm : ℝ) ^ (n + 1) * (Pbar n m (b.pos.z / b.pos.norm) : ℂ) *
    Complex.exp (-Complex.I * m * (Complex.arg ⟨b.pos.x, b.pos.y⟩ : ℂ))

/-- Equations 6.6 (degrees 2 and 3) and 6.7 (degree 4). -/
noncomputable def first (Re : ℝ) (bs : List Body) (n m : ℕ) : ℂ :=
  if n = 4 then kplus m / 5 * (bs.map fun b => b.term Re 2 m).sum
  else k n m / (2 * n + 1) * (bs.map fun b => b.term Re n m).sum

/-- The angle of a constituent: its multipliers times τ, s, h, p, N', p_s, from sidereal time and the Delaunay arguments l, l', F, D, Ω. -/
noncomputable def theta (d : DC) (gmst : ℝ) (a : Fin 5 → ℝ) : ℝ :=
  let s := a 2 + a 4
  d.i0 * (gmst + Real.pi - s) + d.i1 * s + d.i2 * (s - a 3) + d.i3 * (s - a 0) + d.i4 * (-a 4) + d.i5 * (s - a 3 - a 1)

/-- Equations 6.8a and 6.8b: η_m Σ (A_ip + i A_op) e^(iθ) over the constituents of band m, with η_0 = 1, η_1 = -i, η_2 = 1; in units of 1e-12.
(For m = 0 only the real part is meant.) -/
noncomputable def second (rows : List Row2) (gmst : ℝ) (a : Fin 5 → ℝ) (m : ℕ) : ℂ :=
  (if m = 1 then -Complex.I else 1) *
    ((rows.filter fun r => r.d.i0 = (m : ℤ)).map fun r => ((r.ip : ℂ) + r.op * Complex.I) * Complex.exp (Complex.I * theta r.d gmst a)).sum * 1e-12

/-- Tables 6.5a, 6.5b and 6.5c of the Conventions: Doodson number (the six digits, without the comma), in-phase and out-of-phase amplitude in units
of 1e-13. -/
def table65 : List (Nat × Int × Int) := [
  (125755, -1, 0),
  (127555, -1, 0),
  (135645, -1, 0),
  (135655, -7, 1),
  (137455, -1, 0),
  (145545, -13, 1),
  (145555, -68, 6),
  (147555, 1, 0),
  (153655, 1, 0),
  (155445, 1, 0),
  (155455, 4, 0),
  (155655, 13, -1),
  (155665, 3, 0),
  (157455, 3, 0),
  (157465, 1, 0),
  (162556, -19, 1),
  (163545, 5, 0),
  (163555, -434, 29),
  (164554, 6, 0),
  (164556, 16, -1),
  (165345, 1, 0),
  (165535, 1, 0),
  (165545, -88, 5),
  (165555, 4709, -302),
  (165565, 681, -46),
  (165575, -16, 1),
  (166455, 1, 0),
  (166544, -1, 0),
  (166554, -206, -3),
  (166556, 3, 0),
  (166564, -3, 0),
  (167355, -2, 0),
  (167365, -1, 0),
  (167555, -50, 3),
  (167565, 2, 0),
  (168554, -2, 0),
  (173655, -5, 0),
  (173665, -1, 0),
  (175445, 1, 0),
  (175455, -21, 1),
  (175465, -4, 0),
  (183555, -2, 0),
  (185355, -1, 0),
  (185555, -6, 0),
  (185565, -4, 0),
  (185575, -1, 0),
  (195455, -1, 0),
  (195465, -1, 0),
  (55565, 166, -67),
  (55575, -1, 1),
  (56554, -12, 8),
  (57555, -55, 43),
  (57565, 1, -1),
  (58554, -3, 2),
  (63655, -3, 7),
  (65445, 1, -2),
  (65455, -12, 37),
  (65465, 1, -2),
  (65655, 1, -2),
  (73555, 0, 6),
  (75355, 0, 3),
  (75555, 6, 63),
  (75565, 2, 26),
  (75575, 0, 2),
  (83655, 1, 2),
  (85455, 4, 11),
  (85465, 2, 5),
  (93555, 1, 2),
  (95355, 1, 1),
  (245655, -3, 0),
  (255555, -12, 0)]

/-- A row: the digits of the Doodson number are 5 more than the multipliers, except the first. -/
def row65 (r : Nat × Int × Int) : Row2 :=
  let digit (k : Nat) : Int := ((r.1 / 10 ^ k % 10 : Nat) : Int)
  ⟨⟨digit 5, digit 4 - 5, digit 3 - 5, digit 2 - 5, digit 1 - 5, digit 0 - 5, 0⟩, r.2.1 / 10, r.2.2 / 10⟩

/-- All corrections. -/
noncomputable def total (Re : ℝ) (bs : List Body) (gmst : ℝ) (a : Fin 5 → ℝ) (n m : ℕ) : ℂ :=
  first Re bs n m + if n = 2 then (if m = 0 then ((second (table65.map row65) gmst a 0).re : ℂ) else second (table65.map row65) gmst a m) else 0

end Verif.SolidTide
