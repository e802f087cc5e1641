import Verif.Model.Angle
import Verif.Model.Doodson
/-
Angular arguments of tidal constituents (include/doodson.hpp).
-/
namespace Verif.Doodson
open Verif.Angle

/-- `DoodsonConstituent::argument` (doodson.hpp:297-301). `f` holds `[τ, s, h, p, N', ps]`. -/
noncomputable def DC.argument (d : DC) (f : Fin 6 → ℝ) : ℝ :=
  anp (f 0 * d.i0 + f 1 * d.i1 + f 2 * d.i2 + f 3 * d.i3 + f 4 * d.i4 + f 5 * d.i5)

/-- `delaunay2doodson` (doodson.hpp:340-349). `a` holds `[l, l', F, D, Ω]`. -/
noncomputable def delaunay2doodson (a : Fin 5 → ℝ) (gmst : ℝ) : Fin 6 → ℝ :=
  let d1 := anp (a 2 + a 4)
  let d2 := anp (a 2 + a 4 - a 3)
  let d3 := anp (a 2 + a 4 - a 0)
  let d4 := anp (-a 4)
  let d5 := anp (a 2 + a 4 - a 3 - a 1)
  let d0 := anp (gmst + Real.pi - d1)
  ![d0, d1, d2, d3, d4, d5]

end Verif.Doodson
