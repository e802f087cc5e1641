import Verif.Model.RoundedOptions
/-
The assertions of test/unit_tests/i2c_astropy.cpp in double precision: what the program answers about a reference orbit. The reading of the two files is that of
`Model/OrientFrames`.
-/
namespace Verif.RoundedOptions
open Verif Verif.Eop Verif.Rounded Verif.RoundedOrient

/-- A row of the reference file with its celestial position and velocity (`RefOrbit`, i2c_astropy.cpp:24-36). -/
structure Ref where
  row : Row
  rc : V3
  vc : V3

section
variable (fl : Arith)

/-- Three assertions (i2c_astropy.cpp:161-163): differences of doubles, against a tolerance that is a literal. -/
noncomputable def near (tol : ℝ) (a b : V3) : Prop :=
  |fl (a.x - b.x)| < lit fl tol ∧ |fl (a.y - b.y)| < lit fl tol ∧ |fl (a.z - b.z)| < lit fl tol

/-- The assertions of a row (i2c_astropy.cpp:15-16, 161-163, 169-171, 177-179, 182-184, 192-194, 197-199). In the program they are made in between the four
computations; none of these has an effect that could be seen after a failed assertion. -/
noncomputable def accepts (o : Out) (x : Ref) : Prop :=
  near fl 9e-2 o.p1 x.rc ∧ near fl 9e-2 o.p2 x.rc ∧ near fl 9e-2 o.p3 x.rc ∧ near fl 9e-5 o.v3 x.vc ∧ near fl 9e-2 o.p4 x.rc ∧ near fl 9e-5 o.v4 x.vc

variable (fsin fcos fatan s2r : ℝ → ℝ) (fatan2 : ℝ → ℝ → ℝ) (qmul : Quat → Quat → Quat) (mmul : M3 → M3 → M3) (rot : Quat → V3 → V3)
  (mv : M3 → V3 → V3) (dd : ℝ → ℝ → ℝ) (ck : Clock)

open Classical in
/-- The loop with its assertions (i2c_astropy.cpp:96-204). -/
noncomputable def checkLoop (dat : ℝ → ℝ) (s : Series ℝ) : List Ref → Res Int
  | [] => .ok 0
  | x :: rest => (turnOf fl fsin fcos fatan s2r fatan2 qmul mmul rot mv dd ck dat s x.row.tt x.row.old x.row.ri x.row.vi).bind fun (s, o) =>
    match o with
    | none => .ok 1
    | some o => if accepts fl o x then checkLoop dat s rest else .abort

/-- The program from the series and the rows that were read on (i2c_astropy.cpp:92-204). -/
noncomputable def checkRows (cents dat : ℝ → ℝ) (s : Series ℝ) (rows : List Ref) : Res Int :=
  checkLoop fl fsin fcos fatan s2r fatan2 qmul mmul rot mv dd ck dat (RoundedEopTides.regularize fl fsin fcos s2r cents s) rows

end

end Verif.RoundedOptions
