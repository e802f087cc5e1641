import Mathlib.Data.Real.Basic
/-
A term of the developments of the IERS Conventions (2010), Section 5.5.4.
-/
namespace Verif.Cip.Spec

/-- Coefficients of sin and cos (hundredths of a microarcsecond) and the multipliers of the fourteen
fundamental arguments. -/
structure Term where
  s : Int
  c : Int
  n : List Int
deriving DecidableEq

/-- A term as it is printed in the table. -/
def m (s c n0 n1 n2 n3 n4 n5 n6 n7 n8 n9 n10 n11 n12 n13 : Int) : Term :=
  ⟨s, c, [n0, n1, n2, n3, n4, n5, n6, n7, n8, n9, n10, n11, n12, n13]⟩

end Verif.Cip.Spec
