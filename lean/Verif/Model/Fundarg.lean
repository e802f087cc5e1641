import Verif.Model.Angle
/-
Fundamental arguments (include/fundarg.hpp, src/lib/fundarg/fundarg.cpp). `t` is in Julian centuries since
J2000, a real number.
-/
namespace Verif.Fundarg
open Verif.Angle

/-- `fal03` (fundarg.hpp:61-68). -/
noncomputable def fal03 (t : ℝ) : ℝ :=
  sec2rad (fmod (485868.249036 + t * (1717915923.2178 + t * (31.8792 + t * (0.051635 + t * (-0.00024470)))))
    TURNAS)

/-- `dfal03` (fundarg.hpp:75-80). -/
noncomputable def dfal03 (t : ℝ) : ℝ :=
  sec2rad (1717915923.2178 + t * (31.8792 + t * (0.051635 + t * (-0.00024470))))

/-- `falp03` (fundarg.hpp:91-98). -/
noncomputable def falp03 (t : ℝ) : ℝ :=
  sec2rad (fmod (1287104.793048 + t * (129596581.0481 + t * (-0.5532 + t * (0.000136 + t * (-0.00001149)))))
    TURNAS)

/-- `dfalp03` (fundarg.hpp:105-110). -/
noncomputable def dfalp03 (t : ℝ) : ℝ :=
  sec2rad (129596581.0481 + t * (-0.5532 + t * (0.000136 + t * (-0.00001149))))

/-- `faf03` (fundarg.hpp:121-128). -/
noncomputable def faf03 (t : ℝ) : ℝ :=
  sec2rad (fmod (335779.526232 + t * (1739527262.8478 + t * (-12.7512 + t * (-0.001037 + t * (0.00000417)))))
    TURNAS)

/-- `dfaf03` (fundarg.hpp:136-141). -/
noncomputable def dfaf03 (t : ℝ) : ℝ :=
  sec2rad (1739527262.8478 + t * (-12.7512 + t * (-0.001037 + t * (0.00000417))))

/-- `dso::dfaf03(const MjdEpoch &)` (fundarg.hpp:369-371), which calls `faf03`. -/
noncomputable def dfaf03Epoch (t : ℝ) : ℝ := faf03 t

/-- `fad03` (fundarg.hpp:152-159). -/
noncomputable def fad03 (t : ℝ) : ℝ :=
  sec2rad (fmod (1072260.703692 + t * (1602961601.2090 + t * (-6.3706 + t * (0.006593 + t * (-0.00003169)))))
    TURNAS)

/-- `dfad03` (fundarg.hpp:170-175). -/
noncomputable def dfad03 (t : ℝ) : ℝ :=
  sec2rad (1602961601.2090 + t * (-6.3706 + t * (0.006593 + t * (-0.00003169))))

/-- `faom03` (fundarg.hpp:186-193). -/
noncomputable def faom03 (t : ℝ) : ℝ :=
  sec2rad (fmod (450160.398036 + t * (-6962890.5431 + t * (7.4722 + t * (0.007702 + t * (-0.00005939)))))
    TURNAS)

/-- `dfaom03` (fundarg.hpp:201-206). -/
noncomputable def dfaom03 (t : ℝ) : ℝ :=
  sec2rad (-6962890.5431 + t * (7.4722 + t * (0.007702 + t * (-0.00005939))))

/-- `fame03` (fundarg.hpp:217-219). -/
noncomputable def fame03 (t : ℝ) : ℝ := fmod (4.402608842 + 2608.7903141574 * t) D2PI
/-- `fave03` (fundarg.hpp:230-232). -/
noncomputable def fave03 (t : ℝ) : ℝ := fmod (3.176146697 + 1021.3285546211 * t) D2PI
/-- `fae03` (fundarg.hpp:243-245). -/
noncomputable def fae03 (t : ℝ) : ℝ := fmod (1.753470314 + 628.3075849991 * t) D2PI
/-- `fama03` (fundarg.hpp:256-258). -/
noncomputable def fama03 (t : ℝ) : ℝ := fmod (6.203480913 + 334.0612426700 * t) D2PI
/-- `faju03` (fundarg.hpp:269-271). -/
noncomputable def faju03 (t : ℝ) : ℝ := fmod (0.599546497 + 52.9690962641 * t) D2PI
/-- `fasa03` (fundarg.hpp:282-284). -/
noncomputable def fasa03 (t : ℝ) : ℝ := fmod (0.874016757 + 21.3299104960 * t) D2PI
/-- `faur03` (fundarg.hpp:295-297). -/
noncomputable def faur03 (t : ℝ) : ℝ := fmod (5.481293872 + 7.4781598567 * t) D2PI
/-- `fane03` (fundarg.hpp:308-310). -/
noncomputable def fane03 (t : ℝ) : ℝ := fmod (5.311886287 + 3.8133035638 * t) D2PI
/-- `fapa03` (fundarg.hpp:321-323). -/
noncomputable def fapa03 (t : ℝ) : ℝ := (0.024381750 + 0.00000538691 * t) * t

/-- `fundarg` (fundarg.cpp:3-21). -/
noncomputable def fundarg (t : ℝ) : List ℝ := [fal03 t, falp03 t, faf03 t, fad03 t, faom03 t]

/-- `fundarg_derivs` (fundarg.cpp:23-41). -/
noncomputable def fundargDerivs (t : ℝ) : List ℝ := [dfal03 t, dfalp03 t, dfaf03 t, dfad03 t, dfaom03 t]

end Verif.Fundarg
