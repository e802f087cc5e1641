import Verif.Model.RoundedOrient
/-
Programs that compare the library with SOFA at epochs drawn at random, in floating-point arithmetic: test/sofa/era00.cpp, test/sofa/sp00.cpp, test/sofa/gmst.cpp.
The draws are a parameter, and so are SOFA's functions, of the epoch. The number of draws is that of the list.
-/
namespace Verif.RoundedSofa
open Verif Verif.Rounded Verif.RoundedOrient

section
variable (fl : Arith) (s2r r2s : ℝ → ℝ) (ck : Clock)

/-- An assertion (e.g. test/sofa/era00.cpp:10, 21): less than 1e-7 arcseconds apart. -/
def agree (sofa mine : ℝ) : Prop := r2s |fl (sofa - mine)| < lit fl 1e-7

open Classical in
/-- test/sofa/era00.cpp:12-25. -/
noncomputable def eraCheck (sofa : Iau.Epoch → ℝ) : List Iau.Epoch → Res Int
  | [] => .ok 0
  | e :: es => if agree fl r2s (sofa e) (Rounded.era00 fl (ck.frac e) (ck.days e)) then eraCheck sofa es else .abort

open Classical in
/-- test/sofa/sp00.cpp:11-26. -/
noncomputable def spCheck (sofa : Iau.Epoch → ℝ) : List Iau.Epoch → Res Int
  | [] => .ok 0
  | e :: es => if agree fl r2s (sofa e) (RoundedGcrs.sp00 fl s2r (ck.cents e)) then spCheck sofa es else .abort

open Classical in
/-- test/sofa/gmst.cpp:14-39, for draws of TT and UT1. `sofa` is `iauGmst06`, `wrong` is `iauGmst00`. -/
noncomputable def gmstCheck (sofa wrong : Iau.Epoch → Iau.Epoch → ℝ) : List (Iau.Epoch × Iau.Epoch) → Res Int
  | [] => .ok 0
  | (tt, ut1) :: es =>
    let mine := Rounded.gmst fl s2r (ck.cents tt) (ck.frac ut1) (ck.days ut1)
    if agree fl r2s (sofa tt ut1) mine then
      if r2s |fl (wrong tt ut1 - mine)| > r2s |fl (sofa tt ut1 - mine)| then gmstCheck sofa wrong es else .abort
    else .abort

end

end Verif.RoundedSofa
