import Verif.Model.RoundedOrient
/-
The program test/costg_benchmark/tcheck_eops.cpp in floating-point arithmetic, as in `Model/Orient`, from the series and the lines that were read on. The epochs are
those in TT that `gps2tt` (library `datetime`) makes.
-/
namespace Verif.RoundedEops
open Verif Verif.Eop Verif.Rounded Verif.RoundedOrient

/-- The values of a line (tcheck_eops.cpp:118-121): pole coordinates [rad], TIO locator [rad], UT1-UTC and length of day [s], CIP [rad], CIO locator [rad]. -/
structure Line where
  xp : ℝ
  yp : ℝ
  sp : ℝ
  dut : ℝ
  lod : ℝ
  X : ℝ
  Y : ℝ
  s : ℝ

section
variable (fl : Arith) (fsin fcos s2r r2s : ℝ → ℝ) (dd : ℝ → ℝ → ℝ) (ck : Clock)

/-- One turn of the loop (tcheck_eops.cpp:52-121): what is printed; `none` if the epoch is out of bounds. The CIO locator is that of the coordinates without the
corrections (62-67). -/
noncomputable def lineAt (dat : ℝ → ℝ) (s : Series ℝ) (tt : Iau.Epoch) (old : Rec ℝ) : Res (Series ℝ × Rec ℝ × Option Line) :=
  (oriented fl fsin fcos s2r dd ck dat s tt old).bind fun (s, e, inside) =>
    if inside = false then .ok (s, e, none)
    else
      let t := ck.cents tt
      (RoundedCip.xycip06a fl fsin fcos s2r t).bind fun (x, y) =>
        .ok (s, e, some ⟨s2r e.xp, s2r e.yp, RoundedGcrs.sp00 fl s2r t, e.dut, e.lod, fl (x + s2r e.dX), fl (y + s2r e.dY),
          RoundedGcrs.s06 fl fsin fcos s2r (fun i => (RoundedCip.fargs14 fl s2r t).getD i 0) t x y⟩)

/-- The assertions (tcheck_eops.cpp:15-16, 124-134). `r2s` is `rad2sec` (library `geodesy`). -/
noncomputable def accepts (c o : Line) : Prop :=
  r2s |fl (c.xp - o.xp)| < lit fl 1e-1 ∧ r2s |fl (c.yp - o.yp)| < lit fl 1e-1 ∧ r2s |fl (c.sp - o.sp)| < lit fl 1e-1 ∧
    |fl (c.dut - o.dut)| < lit fl 1e1 ∧ |fl (c.lod - o.lod)| < lit fl 1e1 ∧
    r2s |fl (c.X - o.X)| < lit fl 1e-1 ∧ r2s |fl (c.Y - o.Y)| < lit fl 1e-1 ∧ r2s |fl (c.s - o.s)| < lit fl 1e-1

open Classical in
/-- The loop (tcheck_eops.cpp:51-137): the lines given to `printf`, and how the program ends. The record is declared before the loop (47). -/
noncomputable def loop (dat : ℝ → ℝ) : Series ℝ → Rec ℝ → List (Iau.Epoch × Line) → List Line × Res Int
  | _, _, [] => ([], .ok 0)
  | s, old, (tt, c) :: rest =>
    match lineAt fl fsin fcos s2r dd ck dat s tt old with
    | .ok (_, _, none) => ([], .ok 1)
    | .ok (s, e, some o) => if accepts fl r2s c o then let r := loop dat s e rest; (o :: r.1, r.2) else ([o], .abort)
    | .ub => ([], .ub)
    | .abort => ([], .abort)
    | .throw => ([], .throw)

/-- The program from the series and the lines that were read on (tcheck_eops.cpp:43-138). -/
noncomputable def program (cents dat : ℝ → ℝ) (s : Series ℝ) (old : Rec ℝ) (rows : List (Iau.Epoch × Line)) : List Line × Res Int :=
  loop fl fsin fcos s2r r2s dd ck dat (RoundedEopTides.regularize fl fsin fcos s2r cents s) old rows

end

end Verif.RoundedEops
