import Verif.Model.Cip
/-
The CIO locator (src/lib/iau/s06.cpp). Amplitudes in hundredths of a microarcsecond.
-/
namespace Verif.Cip
open Verif Angle

/-- `C0Series` (s06.cpp:45-145): 33 rows are given for an array of 38; the others are value-initialised. -/
def c0Series : List Row :=
  [
  r (-11) 0 1 0 (-2) 0 (-1) 0 0 0 0 0 0 0 0 0,
  r (-11) 0 1 0 (-2) 0 (-3) 0 0 0 0 0 0 0 0 0,
  r 11 0 0 0 2 (-2) 4 0 0 0 0 0 0 0 0 0,
  r (-13) 0 0 0 4 (-2) 4 0 0 0 0 0 0 0 0 0,
  r (-14) 0 1 0 0 (-2) (-1) 0 0 0 0 0 0 0 0 0,
  r (-14) 0 1 0 0 (-2) 1 0 0 0 0 0 0 0 0 0,
  r 14 0 0 1 2 (-2) 2 0 0 0 0 0 0 0 0 0,
  r 14 0 2 0 (-2) 0 (-1) 0 0 0 0 0 0 0 0 0,
  r (-15) 0 0 0 0 2 0 0 0 0 0 0 0 0 0 0,
  r 10 (-5) 0 0 0 0 0 0 8 (-13) 0 0 0 0 0 (-1),
  r (-18) 0 0 1 (-2) 2 (-1) 0 0 0 0 0 0 0 0 0,
  r (-19) 0 0 1 (-2) 2 (-3) 0 0 0 0 0 0 0 0 0,
  r 21 0 0 0 2 (-2) 0 0 0 0 0 0 0 0 0 0,
  r (-26) 0 1 0 2 0 1 0 0 0 0 0 0 0 0 0,
  r (-27) 0 1 0 2 0 3 0 0 0 0 0 0 0 0 0,
  r (-28) 0 0 0 2 0 2 0 0 0 0 0 0 0 0 0,
  r (-32) 0 0 0 2 0 0 0 0 0 0 0 0 0 0 0,
  r 24 12 0 0 1 (-1) 1 0 (-8) 12 0 0 0 0 0 0,
  r (-36) 0 0 0 4 (-4) 4 0 0 0 0 0 0 0 0 0,
  r (-45) 0 0 1 2 (-2) 1 0 0 0 0 0 0 0 0 0,
  r (-46) 0 0 1 2 (-2) 3 0 0 0 0 0 0 0 0 0,
  r 63 0 1 0 0 0 1 0 0 0 0 0 0 0 0 0,
  r 63 0 1 0 0 0 (-1) 0 0 0 0 0 0 0 0 0,
  r 126 1 0 1 0 0 (-1) 0 0 0 0 0 0 0 0 0,
  r 141 1 0 1 0 0 1 0 0 0 0 0 0 0 0 0,
  r 172 0 0 0 0 0 3 0 0 0 0 0 0 0 0 0,
  r (-198) 0 0 0 2 0 1 0 0 0 0 0 0 0 0 0,
  r (-202) 0 0 0 2 0 3 0 0 0 0 0 0 0 0 0,
  r 457 0 0 0 2 (-2) 2 0 0 0 0 0 0 0 0 0,
  r (-1121) (-1) 0 0 2 (-2) 1 0 0 0 0 0 0 0 0 0,
  r (-1175) (-1) 0 0 2 (-2) 3 0 0 0 0 0 0 0 0 0,
  r (-6353) 2 0 0 0 0 2 0 0 0 0 0 0 0 0 0,
  r (-264073) 39 0 0 0 0 1 0 0 0 0 0 0 0 0 0] ++
  List.replicate 5 (r 0 0 0 0 0 0 0 0 0 0 0 0 0 0 0 0)

/-- `C1Series` (s06.cpp:152-162). -/
def c1Series : List Row := [
  r 0 48 0 0 2 (-2) 3 0 0 0 0 0 0 0 0 0,
  r 173 (-3) 0 0 0 0 1 0 0 0 0 0 0 0 0 0,
  r (-7) 357 0 0 0 0 2 0 0 0 0 0 0 0 0 0]

/-- `C2Series` (s06.cpp:169-245). -/
def c2Series : List Row := [
  r (-11) 0 0 0 2 0 0 0 0 0 0 0 0 0 0 0,
  r (-12) 0 1 0 2 (-2) 2 0 0 0 0 0 0 0 0 0,
  r (-13) 0 2 0 0 0 0 0 0 0 0 0 0 0 0 0,
  r 13 0 2 0 2 0 2 0 0 0 0 0 0 0 0 0,
  r 17 0 0 0 2 2 2 0 0 0 0 0 0 0 0 0,
  r 20 0 2 0 (-2) 0 (-1) 0 0 0 0 0 0 0 0 0,
  r (-21) 0 2 0 0 (-2) 0 0 0 0 0 0 0 0 0 0,
  r 22 0 1 0 2 0 1 0 0 0 0 0 0 0 0 0,
  r (-25) 0 1 0 0 0 (-1) 0 0 0 0 0 0 0 0 0,
  r (-26) 0 1 0 (-2) (-2) (-2) 0 0 0 0 0 0 0 0 0,
  r (-27) 0 1 0 0 0 1 0 0 0 0 0 0 0 0 0,
  r (-27) 0 0 0 0 2 0 0 0 0 0 0 0 0 0 0,
  r 53 0 1 0 (-2) 0 (-2) 0 0 0 0 0 0 0 0 0,
  r (-55) 0 0 0 2 (-2) 1 0 0 0 0 0 0 0 0 0,
  r 68 0 1 0 0 (-2) 0 0 0 0 0 0 0 0 0 0,
  r 93 0 0 1 (-2) 2 (-2) 0 0 0 0 0 0 0 0 0,
  r 130 0 1 0 2 0 2 0 0 0 0 0 0 0 0 0,
  r 167 0 0 0 2 0 1 0 0 0 0 0 0 0 0 0,
  r 223 0 0 1 2 (-2) 2 0 0 0 0 0 0 0 0 0,
  r (-307) 0 1 0 0 0 0 0 0 0 0 0 0 0 0 0,
  r (-638) (-5) 0 1 0 0 0 0 0 0 0 0 0 0 0 0,
  r (-885) 1 0 0 0 0 2 0 0 0 0 0 0 0 0 0,
  r 984 (-1) 0 0 2 0 2 0 0 0 0 0 0 0 0 0,
  r 5691 6 0 0 2 (-2) 2 0 0 0 0 0 0 0 0 0,
  r 74352 (-17) 0 0 0 0 1 0 0 0 0 0 0 0 0 0]

/-- `C3Series` (s06.cpp:252-265). -/
def c3Series : List Row := [
  r 0 23 0 0 0 0 2 0 0 0 0 0 0 0 0 0,
  r (-1) (-25) 0 0 2 0 2 0 0 0 0 0 0 0 0 0,
  r (-3) (-146) 0 0 2 (-2) 2 0 0 0 0 0 0 0 0 0,
  r 30 (-2342) 0 0 0 0 1 0 0 0 0 0 0 0 0 0]

/-- `C4Series` (s06.cpp:267-271). -/
def c4Series : List Row := [
  r (-26) (-1) 0 0 0 0 1 0 0 0 0 0 0 0 0 0]

/-- Body of the loops of `detail::s06` (s06.cpp:279-286 and the four that follow), with plain summation. -/
noncomputable def plainSum (fargs : ℕ → ℝ) (rows : List Row) : ℝ :=
  rows.foldl (fun c s =>
    let arg := s.arg fargs
    let ca := Real.cos arg
    let sa := Real.sin arg
    c + ((s.acj / 100 : ℝ) * ca + (s.asj / 100 : ℝ) * sa)) 0

/-- `detail::s06` (s06.cpp:274-348). -/
noncomputable def s06Detail (fargs : ℕ → ℝ) (t x y : ℝ) : ℝ :=
  let c4 := plainSum fargs c4Series
  let c3 := plainSum fargs c3Series
  let c2 := plainSum fargs c2Series
  let c1 := plainSum fargs c1Series
  let c0 := plainSum fargs c0Series
  let cpoly := 94 + (3808.65 + (-122.68 + (-72574.11 + (27.98 + 15.62 * t) * t) * t) * t) * t
  let cseries := c0 + (c1 + (c2 + (c3 + c4 * t) * t) * t) * t
  sec2rad ((cseries + cpoly) * 1e-6) - x * y / 2

/-- `dso::s06(tt, x, y)` (s06.cpp:350-365). `t`: Julian centuries of TT since J2000. -/
noncomputable def s06 (t x y : ℝ) : ℝ := s06Detail (fun i => (fargs14 t).getD i 0) t x y

/-- `dso::s06(tt, x, y, fargs14)` (s06.cpp:367-370). -/
noncomputable def s06With (t x y : ℝ) (fargs14 : List ℝ) : ℝ := s06Detail (fun i => fargs14.getD i 0) t x y

end Verif.Cip
