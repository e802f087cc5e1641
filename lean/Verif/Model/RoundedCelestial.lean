import Verif.Model.RoundedRotation
/-
The two other forms of the celestial motion of the intermediate pole in floating-point arithmetic (`detail::C` is `celestialQ` in `Model/RoundedRotation`).
Rounding and parameters as there.
-/
namespace Verif.RoundedGcrs
open Verif Verif.Rounded Verif.RoundedCip

section
variable (fl : Arith) (fsin fcos fatan : ℝ → ℝ) (fatan2 : ℝ → ℝ → ℝ) (mmul : M3 → M3 → M3)

/-- `detail::C_qimpl` (earth_rotation.hpp:165-181). -/
noncomputable def cq (X Y s : ℝ) : Quat :=
  let z := fcos (spherical fl fatan fatan2 X Y).1
  let cs2 := fcos (fl (s / 2))
  let ss2 := fsin (fl (s / 2))
  let f := fl (1 / fl (Real.sqrt (fl (2 * fl (1 + z)))))
  ⟨fl (f * fl (cs2 * fl (1 + z))), fl (f * fl (fl.pr 0 (cs2 * Y) - fl.pr 1 (ss2 * (-X)))), fl (f * fl (fl.pr 2 (cs2 * (-X)) + fl.pr 3 (ss2 * Y))),
   fl (f * fl (ss2 * fl (1 + z)))⟩

/-- `AngleAxisd::toRotationMatrix` of Eigen for a turn by `s` about the third axis; the products with the entries 0 and 1 of the axis are exact. -/
noncomputable def turnZ (s : ℝ) : M3 := ⟨fcos s, -fsin s, 0, fsin s, fcos s, 0, 0, 0, fl (fl (1 - fcos s) + fcos s)⟩

/-- `detail::C_rxyimpl` (earth_rotation.hpp:202-215). -/
noncomputable def crxy (x y s : ℝ) : M3 :=
  let r2 (k : ℕ) := fl (fl.pr k (x * x) + fl.pr (k + 1) (y * y))
  let a := fl (1 / 2 + fl.pr 2 (1 / 8 * r2 0))
  mmul (turnZ fl fsin fcos s)
    ⟨fl (1 - fl.pr 3 (fl (a * x) * x)), fl (fl (-a * x) * y), -x, fl (fl (-a * x) * y), fl (1 - fl.pr 4 (fl (a * y) * y)), -y, x, y,
     fl (1 - fl.pr 5 (a * r2 6))⟩

end

end Verif.RoundedGcrs
