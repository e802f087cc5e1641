import Verif.Model.Fcn
import Verif.Model.Rounded
/-
Free core nutation (src/lib/free_core_nutation/lambert.cpp) in floating-point arithmetic: `lambertFcn` of `Model/Fcn` with the rounding `fl` after every
operation, products fused with a sum excepted (`Model/Arith`). The numbers of the table are rounded where they are used. Epochs are exact and compared
exactly; `dd` is the library's difference of two epochs in days, `fsin` and `fcos` are the C library's functions.
-/
namespace Verif.RoundedFcn
open Verif Verif.Rounded Verif.Fcn

section
variable (fl : Arith) (dd : ℝ → ℝ → ℝ) (fsin fcos : ℝ → ℝ)

/-- `prev + ((next - prev) / dT) * dt` (lambert.cpp:35-43). -/
noncomputable def interp (k : ℕ) (p n dt dT : ℝ) : ℝ := fl (p + fl.pr k (fl (fl (n - p) / dT) * dt))

/-- `phi` (lambert.cpp:14-17). -/
noncomputable def phi (t : ℝ) : ℝ := fl (fl (D2PI fl / lit fl (-430.21)) * dd t 51544.5)

/-- The amplitudes and their uncertainties (lambert.cpp:26-82): axc, axs, ayc, ays; axc[1] = axs[1], ayc[1] = ays[1]. -/
noncomputable def amplitudes (t : ℝ) (first last : Coef ℝ) : Option (Coef ℝ × Coef ℝ) → (ℝ × ℝ × ℝ × ℝ) × ℝ × ℝ
  | some (prev, next) =>
    let dt := dd t prev.t
    let dT := dd next.t prev.t
    ((interp fl 0 (fl prev.re) (fl next.re) dt dT, interp fl 1 (fl prev.im) (fl next.im) dt dT,
      interp fl 2 (fl prev.im) (fl next.im) dt dT, interp fl 3 (-fl prev.re) (-fl next.re) dt dT),
     |interp fl 4 (fl prev.sg) (fl next.sg) dt dT|, |interp fl 5 (fl prev.sg) (fl next.sg) dt dT|)
  | none =>
    if t ≥ last.t then
      ((fl last.re, fl last.im, fl last.im, -fl last.re), fl (fl last.sg + fl.pr 4 (lit fl 0.3 * dd t last.t)), fl (fl last.sg + fl.pr 5 (lit fl 0.3 * dd t last.t)))
    else
      ((fl first.re, fl first.im, fl first.im, -fl first.re), fl (fl first.sg + fl.pr 6 (lit fl 0.3 * dd t first.t)), fl (fl first.sg + fl.pr 7 (lit fl 0.3 * dd t first.t)))

/-- `lambert_fcn` (lambert.cpp:5-96). -/
noncomputable def lambertFcn (t : ℝ) (lvec : List (Coef ℝ)) : Res Result :=
  match lvec.head?, lvec.reverse.head? with
  | some first, some last =>
    let a := amplitudes fl dd t first last (search t lvec.reverse)
    let cosp := fcos (phi fl dd t)
    let sinp := fsin (phi fl dd t)
    .ok ⟨fl (fl.pr 8 (a.1.1 * cosp) - fl.pr 9 (a.1.2.1 * sinp)), fl (fl.pr 10 (a.1.2.2.1 * cosp) - fl.pr 11 (a.1.2.2.2 * sinp)),
      fl (a.2.1 + a.2.1), fl (a.2.2 + a.2.2)⟩
  | _, _ => .ub

end

end Verif.RoundedFcn
