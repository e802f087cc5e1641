import Verif.Model.Aod1bStream
import Verif.Model.Arith
/-
Queries to a dealiasing stream in floating-point arithmetic (include/aod1b_data_stream.hpp): as in `Model/Aod1bStream`, with the rounding `fl` after every
operation of the interpolation, products fused with a sum excepted (`Model/Arith`). `dd a b` is `a.diff<FractionalDays>(b).days()` of the library `datetime`. The
numbers of the file are rounded when they are read; the stream uses them in the interpolation only, and the model rounds them there. Finding the
data sets involves no floating-point numbers.
-/
namespace Verif.RoundedAod1b
open Verif Verif.Rounded Verif.Aod1b

variable {T : Type} [LinearOrder T] (fl : Arith) (dd : T → T → ℝ) (E : Env T)

/-- `fac1 * v1 + fac2 * v2` (aod1b_data_stream.hpp:398-401) for numbers `v1`, `v2` of the file. -/
noncomputable def blend (fac1 fac2 v1 v2 : ℝ) : ℝ := fl (fl.pr 0 (fac1 * fl v1) + fl.pr 1 (fac2 * fl v2))

/-- The interpolation of `coefficients_at` (aod1b_data_stream.hpp:381-403), as `Ds.interp`. -/
noncomputable def interp (t : T) (e1 e2 : T) (b1 b2 cs : Coeffs ℝ) : Res (Coeffs ℝ) :=
  if cs.deg < cs.rows ∧ cs.deg < b1.rows ∧ cs.deg < b2.rows then
    let fac1 := fl (dd e2 t / dd e2 e1)
    let fac2 := fl (dd t e1 / dd e2 e1)
    .ok { cs with
      C := fun l m => if (m : Int) ≤ cs.ord ∧ m ≤ l ∧ (l : Int) ≤ cs.deg then blend fl fac1 fac2 (b1.C l m) (b2.C l m) else cs.C l m,
      S := fun l m => if (m : Int) ≤ cs.ord ∧ m ≤ l ∧ (l : Int) ≤ cs.deg then blend fl fac1 fac2 (b1.S l m) (b2.S l m) else cs.S l m }
  else .ub

/-- The end of `coefficients_at` (aod1b_data_stream.hpp:381-403) for an index of `hunt_range`, as `Ds.atIndex`. -/
noncomputable def atIndex (t : T) (i : Int) (d : Ds T) (cs : Coeffs ℝ) : Res (Int × Ds T × Coeffs ℝ) :=
  if i = 0 then (interp fl dd t d.h0.epoch d.h1.epoch d.c0 d.c1 cs).bind fun cs => .ok (0, d, cs)
  else if i = 1 then (interp fl dd t d.h1.epoch d.h2.epoch d.c1 d.c2 cs).bind fun cs => .ok (0, d, cs)
  else .ub

/-- `coefficients_at` (aod1b_data_stream.hpp:332-404), as `Ds.coeffsAt`. -/
noncomputable def coeffsAt (t : T) (d : Ds T) (cs : Coeffs ℝ) : Res (Int × Ds T × Coeffs ℝ) :=
  if d.h0.epoch ≤ t ∧ t < d.h1.epoch then atIndex fl dd t 0 d cs
  else if d.h1.epoch ≤ t ∧ t < d.h2.epoch then atIndex fl dd t 1 d cs
  else
    (Ds.hunt E t d).bind fun (i, d) =>
    if 0 ≤ i then atIndex fl dd t i d cs
    else if i = -100 ∧ d.dir = true then
      (Ds.feedNext E d).bind fun (j, d) =>
      if j ≠ 0 then .ok (1, d, cs)
      else (Ds.hunt E t d).bind fun (i, d) => if i < 0 then .ok (1, d, cs) else atIndex fl dd t i d cs
    else .ok (1, d, cs)

/-- Queries one after the other, each into its own set, as `Ds.run`. -/
noncomputable def run : List (T × Coeffs ℝ) → Ds T → Res (List (Int × Coeffs ℝ) × Ds T)
  | [], d => .ok ([], d)
  | (t, cs) :: qs, d =>
    (coeffsAt fl dd E t d cs).bind fun (j, d, cs) => (run qs d).bind fun (rs, d) => .ok ((j, cs) :: rs, d)

end Verif.RoundedAod1b
