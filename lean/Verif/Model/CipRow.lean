import Mathlib.Data.Real.Basic
/-
Rows of the series for the celestial intermediate pole (src/lib/iau/xcip06a.cpp, ycip06a.cpp,
xycip06a_xy.cpp).
-/
namespace Verif.Cip

/-- `XYCipSeriesData` (xcip06a.cpp:12-38, ycip06a.cpp:12-38): amplitudes of sin and cos in hundredths of a
microarcsecond, and the fourteen multipliers. -/
structure Row where
  asj : Int
  acj : Int
  f : List Int
deriving DecidableEq

/-- A row as it is written in the source. -/
def r (s c f0 f1 f2 f3 f4 f5 f6 f7 f8 f9 f10 f11 f12 f13 : Int) : Row :=
  ⟨s, c, [f0, f1, f2, f3, f4, f5, f6, f7, f8, f9, f10, f11, f12, f13]⟩

/-- `Freq` (xycip06a_xy.cpp:16-32): five luni-solar multipliers, number of X rows and of Y rows. -/
structure Freq where
  f : List Int
  nx : Nat
  ny : Nat

/-- A row as it is written in the source. -/
def q (f0 f1 f2 f3 f4 : Int) (nx ny : Nat) : Freq := ⟨[f0, f1, f2, f3, f4], nx, ny⟩

/-- `XyPlntry` (xycip06a_xy.cpp:35-59): sum of planetary multipliers, nine planetary multipliers,
amplitudes of sin and cos in hundredths of a microarcsecond, power of t. -/
structure Pln where
  sumpl : Int
  f : List Int
  as : Int
  ac : Int
  pow : Nat

/-- A row as it is written in the source. -/
def p (sumpl f0 f1 f2 f3 f4 f5 f6 f7 f8 as ac : Int) (pow : Nat) : Pln :=
  ⟨sumpl, [f0, f1, f2, f3, f4, f5, f6, f7, f8], as, ac, pow⟩

end Verif.Cip
