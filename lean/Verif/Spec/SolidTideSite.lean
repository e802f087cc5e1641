import Verif.Spec.SolidTide
import Verif.Spec.PoleTide
/-
Displacement of a site due to the solid Earth tide, IERS Conventions (2010), section 7.1.1: equations 7.5, 7.6, 7.8-7.13 in a frame of unit
vectors east, north and up at geocentric longitude `lon` and latitude `lat`.
-/
namespace Verif.SolidTide
open Verif Verif.PoleTide Verif.Doodson

noncomputable def north (lon lat : ℝ) : V3 := -south lon lat

/-- A vector with the given components. -/
noncomputable def enu (lon lat e n u : ℝ) : V3 := e * east lon lat + (n * north lon lat + u * up lon lat)

/-- Equations 7.5 and 7.6, with the nominal Love and Shida numbers. -/
noncomputable def inPhaseOf (Re : ℝ) (b : Body) (lon lat : ℝ) : V3 :=
  let r := up lon lat
  let R := (1 / b.pos.norm) * b.pos
  let c := R.dot r
  let h2 := 0.6078 - 0.0006 * ((3 * Real.sin lat ^ 2 - 1) / 2)
  let l2 := 0.0847 + 0.0002 * ((3 * Real.sin lat ^ 2 - 1) / 2)
  (b.ratio * Re ^ 4 / b.pos.norm ^ 3) * ((h2 * ((3 * c ^ 2 - 1) / 2)) * r + (3 * l2 * c) * (R - c * r)) +
  (b.ratio * Re ^ 5 / b.pos.norm ^ 4) * ((0.292 * (5 / 2 * c ^ 3 - 3 / 2 * c)) * r + (0.015 * (15 / 2 * c ^ 2 - 3 / 2)) * (R - c * r))

/-- Equations 7.8 to 7.11: latitude dependence (l⁽¹⁾) and the imaginary parts; `Φ`, `Λ` are the latitude and longitude of the body. -/
noncomputable def outPhaseOf (Re : ℝ) (b : Body) (lon lat : ℝ) : V3 :=
  let Φ := Real.arcsin (b.pos.z / b.pos.norm)
  let Λ := Complex.arg ⟨b.pos.x, b.pos.y⟩
  let P21 := 3 * Real.sin Φ * Real.cos Φ
  let P22 := 3 * Real.cos Φ ^ 2
  (b.ratio * Re ^ 4 / b.pos.norm ^ 3) *
    -- 7.8
    (enu lon lat (-0.0012 * Real.sin lat * P21 * (-(Real.cos (2 * lat) * Real.sin (lon - Λ))))
        (-0.0012 * Real.sin lat * P21 * (Real.sin lat * Real.cos (lon - Λ))) 0 +
    -- 7.9
    (enu lon lat (-1 / 2 * 0.0024 * Real.sin lat * Real.cos lat * P22 * (Real.sin lat * Real.sin (2 * (lon - Λ))))
        (-1 / 2 * 0.0024 * Real.sin lat * Real.cos lat * P22 * Real.cos (2 * (lon - Λ))) 0 +
    -- 7.10, diurnal
    (enu lon lat (-3 / 2 * -0.0007 * Real.sin (2 * Φ) * (Real.sin lat * Real.cos (lon - Λ)))
        (-3 / 2 * -0.0007 * Real.sin (2 * Φ) * (Real.cos (2 * lat) * Real.sin (lon - Λ)))
        (-3 / 4 * -0.0025 * Real.sin (2 * Φ) * Real.sin (2 * lat) * Real.sin (lon - Λ)) +
    -- 7.11, semi-diurnal
    enu lon lat (3 / 4 * -0.0007 * Real.cos Φ ^ 2 * (-2 * Real.cos lat * Real.cos (2 * (lon - Λ))))
        (3 / 4 * -0.0007 * Real.cos Φ ^ 2 * (Real.sin (2 * lat) * Real.sin (2 * (lon - Λ))))
        (-3 / 4 * -0.0022 * Real.cos Φ ^ 2 * Real.cos lat ^ 2 * Real.sin (2 * (lon - Λ))))))

/-- Equations 7.12 (diurnal) and 7.13 (long period) for one constituent, in millimetres. -/
noncomputable def rowOf (g : ℝ) (a : Fin 5 → ℝ) (lon lat : ℝ) (r : Row7) : V3 :=
  let θ := theta r.d g a
  if r.d.i0 = 1 then
    enu lon lat ((r.tip * Real.cos (θ + lon) - r.top * Real.sin (θ + lon)) * Real.sin lat)
      ((r.tip * Real.sin (θ + lon) + r.top * Real.cos (θ + lon)) * Real.cos (2 * lat))
      ((r.rip * Real.sin (θ + lon) + r.rop * Real.cos (θ + lon)) * Real.sin (2 * lat))
  else
    enu lon lat 0 ((r.tip * Real.cos θ + r.top * Real.sin θ) * Real.sin (2 * lat))
      ((3 / 2 * Real.sin lat ^ 2 - 1 / 2) * (r.rip * Real.cos θ + r.rop * Real.sin θ))

/-- Sum of vectors. -/
noncomputable def vsum : List V3 → V3
  | [] => 0
  | v :: l => v + vsum l

end Verif.SolidTide
