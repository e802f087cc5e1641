import Verif.Model.GroopsDisk
import Verif.Model.Cunningham
/-
The attraction from the coefficients of a tide model, as a user (and test/costg_benchmark) computes it.
-/
namespace Verif.Tide
open Verif

/-- A set of coefficients as `sh2gradient_cunningham` reads it (gravity.hpp:120-160): degree, order, elements, GM and radius. -/
def field (c : Coeffs ℝ) : Cunningham.Coeffs := ⟨c.deg, c.ord, fun n m => c.C n.toNat m.toNat, fun n m => c.S n.toNat m.toNat, c.gm, c.re⟩

/-- `sh2gradient_cunningham(cs, r, a, g, n, n, -1, -1, &W, &M)`: the acceleration (`none` if the status is not zero); GM and radius are
those of the set (test/costg_benchmark/check_11oceanTide_fes2014b_34major_icrf.cpp:86-91). `W` and `M` are the work arrays with
their contents. -/
noncomputable def attraction (c : Coeffs ℝ) (r : V3) (n : Int) (W M : Tri) : Res (Option V3) :=
  (Cunningham.gradient (field c) r n n (-1) (-1) (some W) (some M) (fun _ => 0)).bind fun o => .ok (o.map (·.a))

end Verif.Tide
