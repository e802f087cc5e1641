import Verif.Model.Rounded
import Verif.Model.Relativity
/-
Relativistic acceleration in floating-point arithmetic (src/lib/relativity/iers12010_relativistic_correction.cpp): as in `Model/Relativity`, with
the rounding `fl` after every operation and every literal, products fused with a sum excepted (`Model/Arith`). `sq` and `dot` are
`squaredNorm()` and `dot` of Eigen, which form their sums in an order of their own, and `cube x` is `std::pow(x, 3)`.
-/
namespace Verif.RoundedRelativity
open Verif Verif.Rounded
open Verif.Relativity (State)

section
variable (fl : Arith) (sq : V3 → ℝ) (dot : V3 → V3 → ℝ) (cube : ℝ → ℝ)

/-- `v.norm()`. -/
noncomputable def norm (v : V3) : ℝ := fl (Real.sqrt (sq v))

/-- A component of a cross product. -/
noncomputable def minor (k : ℕ) (a b c d : ℝ) : ℝ := fl (fl.pr k (a * b) - fl.pr (k + 1) (c * d))

/-- `a.cross(b)`. -/
noncomputable def cross (a b : V3) : V3 := ⟨minor fl 10 a.y b.z a.z b.y, minor fl 12 a.z b.x a.x b.z, minor fl 14 a.x b.y a.y b.x⟩

/-- A vector in kilometres (iers12010_relativistic_correction.cpp:55-56). -/
noncomputable def km (v : V3) : V3 := ⟨fl (v.x * lit fl 1e-3), fl (v.y * lit fl 1e-3), fl (v.z * lit fl 1e-3)⟩

/-- `schwarzschild` (iers12010_relativistic_correction.cpp:5-14): the factors of `r` and `v`, and a component. -/
noncomputable def schwR (sat : State) (GMe beta gamma : ℝ) : ℝ :=
  fl (fl.pr 0 (fl (2 * fl (beta + gamma)) * fl (GMe / norm fl sq sat.r)) - fl.pr 1 (gamma * dot sat.v sat.v))
noncomputable def schwV (sat : State) (gamma : ℝ) : ℝ := fl (fl (2 * fl (1 + gamma)) * dot sat.r sat.v)
noncomputable def schw (A B r v : ℝ) : ℝ := fl (fl.pr 2 (A * r) + fl.pr 3 (B * v))

/-- A component of `lens_thirring` (iers12010_relativistic_correction.cpp:17-30); `rv` and `vj` are those of the cross products, `rj` is `r.dot(j)`. -/
noncomputable def lens (s rv rj vj gamma : ℝ) : ℝ := fl.pr 4 (fl (1 + gamma) * fl (fl.pr 5 (fl (fl (fl (3 / s) / s) * rv) * rj) + vj))

/-- A component of `geodesic` (iers12010_relativistic_correction.cpp:33-46); `w` is that of the cross product. -/
noncomputable def geo (s R w GMe GMs gamma : ℝ) : ℝ :=
  fl.pr 6 (fl (fl (fl (1 + fl.pr 7 (2 * gamma)) * w) * fl (GMs / GMe)) * fl (cube s / cube R))

/-- A component of the sum of the three (iers12010_relativistic_correction.cpp:66-69). -/
noncomputable def total (S L G f : ℝ) : ℝ := fl (fl (fl (fl (S + L) - G) * f) * 1000)

/-- `iers2010_relativistic_acceleration` (iers12010_relativistic_correction.cpp:49-70). Multiplication by -1 is exact. -/
noncomputable def acceleration (rsatin rsunin : State) (GMe GMs J c beta gamma : ℝ) : V3 :=
  let rsat : State := ⟨km fl rsatin.r, km fl rsatin.v⟩
  let rers : State := ⟨-km fl rsunin.r, -km fl rsunin.v⟩
  let GMe := fl (GMe * lit fl 1e-9)
  let GMs := fl (GMs * lit fl 1e-9)
  let J := fl (J * lit fl 1e-6)
  let c := fl (c * lit fl 1e-3)
  let s := norm fl sq rsat.r
  let R := norm fl sq rers.r
  let f := fl (GMe / fl (fl (fl (fl (c * c) * s) * s) * s))
  let A := schwR fl sq dot rsat GMe beta gamma
  let B := schwV fl dot rsat gamma
  let j : V3 := ⟨0, 0, J⟩
  let rj := dot rsat.r j
  let rv := cross fl rsat.r rsat.v
  let vj := cross fl rsat.v j
  let w := cross fl (cross fl rers.v rers.r) rsat.v
  ⟨total fl (schw fl A B rsat.r.x rsat.v.x) (lens fl s rv.x rj vj.x gamma) (geo fl cube s R w.x GMe GMs gamma) f,
   total fl (schw fl A B rsat.r.y rsat.v.y) (lens fl s rv.y rj vj.y gamma) (geo fl cube s R w.y GMe GMs gamma) f,
   total fl (schw fl A B rsat.r.z rsat.v.z) (lens fl s rv.z rj vj.z gamma) (geo fl cube s R w.z GMe GMs gamma) f⟩

end

/-- `a.dot(b)` as Eigen forms it without vector instructions. -/
noncomputable def dots (fl : Arith) (a b : V3) : ℝ := fl (fl.pr 20 (a.x * b.x) + fl (fl.pr 21 (a.y * b.y) + fl.pr 22 (a.z * b.z)))

end Verif.RoundedRelativity
