import Mathlib.Data.Real.Basic
/-
The arithmetic of the compiled program. The library is built for release with `-O2 -march=native` (CMakeLists.txt:44-45), and compilers then
fuse a product and the sum it is added to into one instruction that rounds only once (GCC's -ffp-contract=fast). Which products are fused
is the compiler's choice, so it is a parameter here.
-/
namespace Verif.Rounded

/-- `rd` rounds the result of an operation. `pr k` is applied to a product that is added to, or subtracted from, something: it rounds the
product where the compiler does not fuse, and does nothing where it does. `k` tells the products in an expression apart. -/
structure Arith where
  rd : ℝ → ℝ
  pr : ℕ → ℝ → ℝ

/-- `fl x` is `x` rounded. -/
instance : CoeFun Arith fun _ => ℝ → ℝ := ⟨Arith.rd⟩

end Verif.Rounded
