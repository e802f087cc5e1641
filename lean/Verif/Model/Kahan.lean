import Mathlib.Algebra.Order.Field.Rat
import Mathlib.Algebra.Order.AbsoluteValue.Basic
/-
Compensated summation (include/kahan.hpp). Floating-point numbers are rationals; `fl` is the rounding
applied after every operation (a parameter: the identity, round-to-nearest, ...).
-/
namespace Verif.Kahan

/-- `KahanSum` (kahan.hpp:8-13). -/
structure K where
  sum : ℚ
  err : ℚ

/-- Constructor (kahan.hpp:33). -/
def K.init (start : ℚ) : K := ⟨start, 0⟩

/-- `operator+=` (kahan.hpp:18-30). -/
def K.add (fl : ℚ → ℚ) (k : K) (v : ℚ) : K :=
  let t := fl (k.sum + v)
  if |k.sum| ≥ |v| then ⟨t, fl (k.err + fl (fl (k.sum - t) + v))⟩
  else ⟨t, fl (k.err + fl (fl (v - t) + k.sum))⟩

/-- Conversion to `double` (kahan.hpp:36). -/
def K.toDouble (fl : ℚ → ℚ) (k : K) : ℚ := fl (k.sum + k.err)

/-- A sequence of `+=`. -/
def K.addAll (fl : ℚ → ℚ) (k : K) (vs : List ℚ) : K := vs.foldl (K.add fl) k

end Verif.Kahan
