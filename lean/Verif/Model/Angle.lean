import Mathlib.Analysis.SpecialFunctions.Trigonometric.Basic
import Mathlib.Algebra.Order.Floor.Ring
import Mathlib.Algebra.Order.Round
/-
Angles. `std::fmod` and the helpers of the `geodesy` library that the sources call (`dso::anp`, `dso::sec2rad`,
`dso::hsec2rad`, `dso::DPI`, `dso::D2PI`, `dso::TURNAS`) are replaced by their documented meaning over the
reals; rounding is not modelled.
-/
namespace Verif.Angle

/-- Truncation toward zero. -/
noncomputable def trunc (x : ℝ) : ℤ := if 0 ≤ x then ⌊x⌋ else ⌈x⌉

/-- `std::fmod(x, y)` (used in fundarg.hpp:62-310): remainder with the sign of `x`. -/
noncomputable def fmod (x y : ℝ) : ℝ := x - y * trunc (x / y)

/-- `dso::D2PI`. -/
noncomputable def D2PI : ℝ := 2 * Real.pi

/-- `dso::TURNAS`: arcseconds in a full circle. -/
def TURNAS : ℝ := 1296000

/-- `dso::anp` (used in doodson.hpp, iau/*.cpp): `w = fmod(a, 2π); return w < 0 ? w + 2π : w`. -/
noncomputable def anp (a : ℝ) : ℝ :=
  let w := fmod a D2PI
  if w < 0 then w + D2PI else w

/-- `dso::sec2rad`: arcseconds to radians. -/
noncomputable def sec2rad (x : ℝ) : ℝ := x * (2 * Real.pi / 1296000)

/-- `dso::hsec2rad`: seconds of hour angle to radians. -/
noncomputable def hsec2rad (x : ℝ) : ℝ := x * (2 * Real.pi / 86400)

end Verif.Angle
