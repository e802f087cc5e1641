import Verif.Model.CipRow
/-
Tables of src/lib/iau/xycip06a_xy.cpp.

Generated from the source; amplitudes in hundredths of a microarcsecond (exact for every entry).
-/
namespace Verif.Cip

private def xyLunSol_0 : List Freq := [
  q 0 0 4 (-4) 4 1 0,
  q 1 0 (-2) 0 (-3) 0 1,
  q 0 1 4 (-4) 2 1 1,
  q 2 (-1) (-2) 0 1 1 1,
  q 0 0 0 3 2 1 1,
  q 2 2 0 (-2) (-1) 1 1,
  q 5 0 2 0 1 1 0,
  q 1 (-2) 0 (-1) 0 1 0,
  q 4 0 (-2) (-2) 0 1 0,
  q 0 1 (-4) 2 (-1) 1 0,
  q 4 1 2 (-2) 2 1 0,
  q 3 1 2 2 2 1 0,
  q 3 1 0 (-2) 0 1 0,
  q 3 1 (-2) (-6) (-2) 1 0,
  q 3 (-1) 0 (-2) 0 1 0,
  q 3 (-1) 0 (-3) 0 1 0,
  q 2 1 0 (-3) 0 1 0,
  q 2 0 1 (-3) 1 1 0,
  q 2 0 (-2) (-5) (-2) 1 0,
  q 2 (-1) 2 4 2 1 0,
  q 1 3 (-2) (-2) (-2) 1 0,
  q 1 1 (-2) (-1) (-2) 1 0,
  q 1 0 (-1) (-1) 0 1 0,
  q 1 1 0 (-6) 0 1 0,
  q 1 0 0 3 0 1 0,
  q 1 2 2 (-4) 1 1 1,
  q 1 0 (-1) 1 0 1 0,
  q 2 1 2 (-2) 0 1 0,
  q 2 1 2 0 0 1 0,
  q 1 0 2 1 0 1 0,
  q 3 0 (-2) (-4) (-2) 1 0,
  q 2 (-1) 0 (-2) 2 1 0,
  q 1 1 (-2) 1 (-2) 1 0,
  q 2 1 (-2) 0 (-2) 1 0,
  q 2 1 2 (-4) 2 1 0,
  q 2 0 0 (-4) 2 1 0,
  q 3 0 0 0 (-2) 1 0,
  q 1 0 0 (-4) 2 1 0,
  q 2 0 0 (-4) (-2) 1 0,
  q 1 1 0 0 (-2) 1 0,
  q 1 0 (-2) 4 (-2) 1 0,
  q 0 2 0 0 (-2) 1 1,
  q 0 0 2 (-3) 0 1 0,
  q 0 0 1 1 0 1 0,
  q 3 0 0 (-1) 0 1 0,
  q 2 1 0 1 0 1 0,
  q 2 1 0 (-6) 0 1 0,
  q 1 (-1) 0 1 0 1 0,
  q 3 (-1) 0 2 0 1 0,
  q 4 0 0 2 0 1 0,
  q 1 0 2 (-1) 0 1 0,
  q 1 (-1) (-2) (-2) 0 1 0,
  q 0 1 2 2 0 1 0,
  q 2 (-1) 2 0 0 1 0,
  q 0 1 (-2) 2 (-3) 0 1,
  q 1 0 (-2) 1 1 1 1,
  q 2 0 0 (-1) 1 1 1,
  q 1 (-1) (-4) 2 (-2) 1 1,
  q 1 0 1 (-2) 0 1 0,
  q 1 (-1) 2 1 2 1 1,
  q 4 1 2 0 2 1 1,
  q 4 (-1) (-2) (-2) (-2) 1 1,
  q 2 1 (-2) (-6) (-2) 1 1,
  q 1 1 (-2) (-3) (-2) 1 1,
  q 1 0 3 0 3 1 1,
  q 0 3 (-2) (-2) (-2) 1 1,
  q 0 2 0 (-4) 0 1 0,
  q 0 0 0 6 0 1 0,
  q 3 0 0 (-2) 0 1 0,
  q 2 (-1) (-2) 2 (-1) 1 1,
  q 0 0 2 (-4) 0 1 0,
  q 0 1 0 4 1 1 1,
  q 0 0 4 2 2 1 1,
  q 2 1 0 (-2) (-2) 1 1,
  q 1 0 (-2) 0 2 1 1,
  q 1 (-1) 0 0 (-2) 1 1,
  q 1 1 (-2) 2 (-2) 1 1,
  q 1 0 0 (-3) (-1) 1 1,
  q 2 0 (-2) (-2) 1 1 1,
  q 2 0 0 (-3) 1 1 1,
  q 3 0 0 2 (-1) 1 1,
  q 1 1 0 1 1 1 1,
  q 2 (-1) 0 2 (-1) 1 1,
  q 1 1 0 1 (-1) 1 1,
  q 1 0 (-4) (-2) (-1) 1 1,
  q 1 (-1) (-2) (-4) (-1) 1 1,
  q 1 (-2) 2 2 1 1 1,
  q 3 1 2 (-2) 1 1 1,
  q 1 0 (-2) (-6) (-1) 1 1,
  q 2 0 4 (-4) 2 1 1,
  q 3 0 4 (-2) 2 1 1,
  q 1 1 2 4 2 1 1,
  q 0 1 (-2) 4 (-1) 1 1,
  q 3 0 2 1 2 1 1,
  q 2 (-2) 2 2 2 1 1,
  q 1 1 (-2) (-6) (-2) 1 1,
  q 1 (-2) (-2) 2 (-1) 1 1,
  q 2 0 2 (-3) 2 1 1,
  q 3 0 (-2) 2 (-1) 1 1,
  q 2 0 0 4 1 1 1,
  q 2 0 (-4) 2 (-1) 1 1,
  q 2 (-1) 0 2 1 1 1,
  q 2 (-2) 0 (-2) (-2) 1 1,
  q 3 0 0 0 2 1 1,
  q 0 2 0 0 2 1 1,
  q 0 1 2 (-4) 2 1 1,
  q 2 0 2 (-2) (-1) 1 1,
  q 1 0 2 (-4) (-1) 1 1,
  q 1 2 0 0 1 1 1,
  q 1 (-1) 2 (-3) 1 1 1,
  q 1 0 4 0 1 1 1,
  q 2 (-1) (-2) (-2) (-1) 1 1,
  q 2 1 2 2 1 1 1,
  q 3 0 (-2) (-6) (-1) 1 1,
  q 1 2 2 0 1 1 1,
  q 1 (-1) 2 4 1 1 1,
  q 2 0 2 4 1 1 1,
  q 1 0 2 (-6) 1 1 1,
  q 1 (-1) (-2) 1 (-1) 1 1,
  q 1 0 1 1 1 1 1,
  q 1 0 (-1) (-2) (-1) 1 1,
  q 3 0 (-2) (-1) (-1) 1 1,
  q 2 0 2 (-6) 1 1 1,
  q 4 0 (-2) 0 (-1) 1 1,
  q 2 1 0 2 1 1 1,
  q 1 (-1) 0 4 1 1 1,
  q 2 0 0 (-6) (-1) 1 1,
  q 0 0 1 1 2 1 1,
  q 0 1 2 (-2) 3 0 1,
  q 2 0 (-1) (-1) 1 1 1,
  q 4 (-1) 2 0 2 1 1,
  q 5 0 0 0 0 1 0,
  q 3 0 0 (-3) 0 1 0,
  q 2 2 0 (-4) 0 1 0,
  q 2 2 (-2) (-4) (-2) 1 1,
  q 0 1 0 3 0 1 0,
  q 1 (-1) 2 2 0 1 0,
  q 1 0 1 0 0 1 0,
  q 0 2 0 2 0 1 0,
  q 1 0 2 (-3) 0 1 0,
  q 3 0 (-2) (-2) 0 1 0,
  q 2 (-2) 0 0 0 1 0,
  q 1 1 0 (-3) 0 1 0,
  q 1 (-1) 2 (-2) 0 1 0,
  q 1 1 2 (-4) 0 1 0,
  q 0 0 2 4 0 1 0,
  q 2 0 (-4) 2 (-2) 1 1,
  q 0 0 0 4 2 1 1,
  q 1 0 0 4 (-1) 1 1,
  q 1 1 4 (-2) 2 1 1,
  q 4 0 2 (-4) 2 1 1,
  q 1 0 2 3 2 1 1,
  q 2 (-1) (-2) 0 (-2) 1 1,
  q 1 1 2 (-4) 2 1 1,
  q 1 (-2) 0 (-2) 1 1 1,
  q 0 1 0 (-4) 1 1 1,
  q 1 (-2) 2 0 1 1 1,
  q 2 0 (-4) (-2) (-1) 1 1,
  q 2 0 2 1 1 1 1,
  q 2 0 (-2) (-6) (-1) 1 1,
  q 2 1 2 1 2 1 1,
  q 1 0 (-1) 1 (-1) 2 2,
  q 0 2 (-2) (-4) (-2) 1 1,
  q 0 1 2 3 2 1 1,
  q 0 2 2 2 2 1 1,
  q 2 (-1) 2 (-1) 2 1 1,
  q 2 1 2 (-4) 1 1 1,
  q 1 (-1) 0 (-4) (-1) 1 1,
  q 2 (-2) 0 (-2) 1 1 1,
  q 1 (-2) 0 0 (-1) 1 1,
  q 2 0 0 (-3) (-1) 1 1,
  q 2 1 (-2) 0 1 1 1,
  q 2 (-1) 2 (-2) 1 1 1,
  q 1 (-2) (-2) (-2) (-1) 1 1,
  q 2 0 4 (-2) 1 1 1,
  q 0 0 2 3 1 1 1,
  q 0 1 4 (-2) 1 1 1,
  q 1 0 1 (-1) 1 1 1,
  q 1 0 (-1) (-1) (-1) 1 1,
  q 1 0 0 (-6) (-1) 1 1,
  q 3 0 0 (-2) 1 1 1,
  q 0 2 (-2) 0 (-1) 1 1,
  q 2 (-2) 2 (-2) 2 1 1,
  q 2 0 (-1) (-1) (-2) 1 1,
  q 2 2 2 (-2) 2 1 1,
  q 0 0 4 (-2) 0 1 0,
  q 0 0 0 1 (-2) 1 1,
  q 0 3 0 (-2) 0 1 0,
  q 2 (-1) 0 (-1) 0 1 0,
  q 1 3 0 (-2) 0 1 0,
  q 0 1 0 (-2) 2 1 1,
  q 0 0 2 0 (-2) 1 1,
  q 1 0 4 (-4) 2 1 1,
  q 1 2 (-2) (-4) (-2) 1 1,
  q 0 0 4 (-1) 2 1 1,
  q 5 0 2 (-2) 2 1 1,
  q 1 1 (-2) 2 0 1 0,
  q 2 0 0 4 0 1 0,
  q 1 0 0 (-3) 1 1 1,
  q 2 (-2) 2 0 2 1 1]

private def xyLunSol_1 : List Freq := [
  q 1 (-1) (-2) (-3) (-2) 1 1,
  q 1 (-2) (-2) 0 (-2) 1 1,
  q 2 0 0 2 2 1 1,
  q 0 0 2 (-2) (-2) 1 1,
  q 1 1 0 2 (-1) 1 1,
  q 4 0 0 0 (-1) 1 1,
  q 0 2 2 0 1 1 1,
  q 3 (-1) 2 0 1 1 1,
  q 2 0 2 (-1) 1 1 1,
  q 1 2 2 (-2) 1 1 1,
  q 3 0 2 (-1) 2 1 1,
  q 1 (-2) 0 (-2) (-1) 1 1,
  q 1 1 0 (-1) 1 1 1,
  q 3 1 2 0 1 1 1,
  q 1 1 2 1 1 1 1,
  q 1 0 (-1) 0 1 1 1,
  q 0 1 (-2) 0 0 1 0,
  q 1 (-1) 0 (-3) 0 1 0,
  q 1 2 0 (-4) 0 1 0,
  q 0 1 0 4 0 1 0,
  q 3 0 2 (-2) 0 1 0,
  q 2 0 2 2 0 1 0,
  q 2 0 (-1) (-1) (-1) 4 4,
  q 4 0 0 (-4) 0 1 0,
  q 1 (-1) 0 4 0 1 0,
  q 2 1 0 2 0 1 0,
  q 0 1 0 2 2 1 1,
  q 1 (-2) 2 (-2) 2 1 1,
  q 0 1 (-2) (-1) (-2) 1 1,
  q 3 (-1) 2 (-2) 2 1 1,
  q 3 (-1) 2 2 2 1 1,
  q 1 0 0 (-1) 2 1 1,
  q 3 (-1) (-2) (-1) (-2) 1 1,
  q 2 0 2 0 (-1) 1 1,
  q 2 1 0 (-4) 1 1 1,
  q 2 0 (-4) 0 (-1) 1 1,
  q 0 0 3 0 2 1 1,
  q 1 (-2) 0 0 1 1 1,
  q 2 1 (-2) (-2) (-1) 1 1,
  q 0 0 1 (-1) (-1) 3 2,
  q 1 0 0 2 (-2) 1 1,
  q 0 1 0 (-1) 0 1 0,
  q 0 0 2 6 2 1 1,
  q 1 0 (-4) 0 0 1 0,
  q 2 0 (-2) (-4) 0 1 0,
  q 1 1 0 0 2 1 1,
  q 3 1 0 (-4) 0 1 0,
  q 3 0 0 (-6) 0 1 0,
  q 0 0 0 3 0 1 0,
  q 2 (-1) 0 (-4) 0 1 0,
  q 1 1 0 (-2) 2 1 1,
  q 1 0 0 (-4) (-2) 1 1,
  q 1 1 0 (-4) 1 1 1,
  q 0 0 0 1 2 1 1,
  q 0 0 2 2 (-1) 1 1,
  q 3 0 0 2 1 1 1,
  q 1 1 0 (-4) (-1) 1 1,
  q 1 (-1) 2 (-4) 1 1 1,
  q 2 1 0 (-4) (-1) 1 1,
  q 0 0 0 3 1 1 1,
  q 4 0 (-2) (-2) (-1) 1 1,
  q 2 0 (-2) 2 (-2) 1 1,
  q 1 0 0 (-6) 0 1 1,
  q 1 0 (-2) (-4) 0 1 1,
  q 0 2 2 (-2) 0 1 0,
  q 1 1 (-2) 0 0 1 0,
  q 0 1 (-4) 2 (-2) 1 1,
  q 0 1 2 4 2 1 1,
  q 2 (-1) 2 2 1 1 1,
  q 0 1 (-2) (-4) (-1) 1 1,
  q 2 0 (-2) (-3) (-2) 1 1,
  q 4 0 2 2 2 1 1,
  q 3 0 0 (-4) 1 1 1,
  q 1 (-1) 0 0 2 1 1,
  q 1 (-1) (-2) 0 0 1 0,
  q 0 0 2 1 0 1 0,
  q 1 1 2 0 0 1 0,
  q 1 0 2 0 3 1 1,
  q 1 (-2) 2 (-2) 1 1 1,
  q 2 2 0 (-2) 0 1 0,
  q 4 0 0 (-2) 0 1 0,
  q 0 1 2 0 0 1 0,
  q 1 1 0 (-2) (-2) 1 1,
  q 2 (-1) (-2) (-4) (-2) 1 1,
  q 3 0 (-2) 0 (-2) 1 1,
  q 3 0 0 (-2) (-1) 1 1,
  q 1 0 (-2) (-3) (-1) 1 1,
  q 0 1 0 (-4) (-1) 1 1,
  q 0 1 (-2) 1 (-1) 1 1,
  q 1 2 (-2) (-2) (-1) 1 1,
  q 0 0 4 (-4) 1 1 1,
  q 1 (-1) 0 (-4) 0 1 0,
  q 1 (-1) 2 0 0 1 0,
  q 1 (-1) 2 (-1) 2 1 1,
  q 0 1 0 (-2) (-2) 1 1,
  q 1 2 2 0 2 1 1,
  q 2 1 (-2) (-4) (-1) 1 1,
  q 4 0 2 (-2) 1 1 1,
  q 1 0 (-2) (-2) 1 1 1,
  q 1 0 (-2) 4 (-1) 1 1,
  q 3 0 (-2) (-6) (-2) 1 1,
  q 5 0 2 0 2 1 1,
  q 2 0 0 (-6) 0 1 1,
  q 3 1 0 0 0 1 0,
  q 3 0 (-2) 0 0 1 0,
  q 2 0 0 1 0 1 0,
  q 1 (-2) 0 2 0 1 0,
  q 1 (-1) 2 4 2 1 1,
  q 1 0 4 0 2 1 1,
  q 1 0 0 2 2 1 1,
  q 0 2 (-2) (-2) (-1) 1 1,
  q 2 0 (-2) 0 2 1 1,
  q 1 0 0 1 1 1 1,
  q 3 0 0 (-4) (-1) 1 1,
  q 1 0 (-4) 2 (-1) 1 1,
  q 0 1 2 (-4) 1 1 1,
  q 0 2 0 (-2) 1 1 1,
  q 1 0 1 (-2) 1 1 1,
  q 0 1 (-2) (-2) 0 1 1,
  q 2 0 (-1) (-1) 0 2 0,
  q 2 (-1) (-2) (-2) (-2) 1 1,
  q 0 0 3 0 3 1 1,
  q 2 1 2 2 2 1 1,
  q 3 0 2 (-4) 2 1 1,
  q 3 0 2 2 1 1 1,
  q 1 (-1) (-2) 2 (-2) 1 1,
  q 2 1 0 0 1 1 1,
  q 1 0 1 0 1 1 1,
  q 2 0 2 (-4) 0 1 1,
  q 1 1 (-2) (-2) 0 1 1,
  q 2 (-1) (-2) 0 0 1 1,
  q 2 0 (-2) 2 0 1 0,
  q 3 (-1) 0 0 0 1 1,
  q 1 1 2 (-2) 0 1 0,
  q 0 0 0 0 3 1 1,
  q 1 1 (-2) 1 0 1 0,
  q 3 0 2 0 0 1 1,
  q 2 0 2 4 2 1 1,
  q 1 1 2 2 1 1 1,
  q 1 2 0 (-2) 1 1 1,
  q 2 1 0 0 (-1) 1 1,
  q 0 0 1 (-1) 2 12 10,
  q 0 0 2 (-1) 0 1 0,
  q 0 0 2 (-4) 2 1 1,
  q 3 1 2 (-2) 2 1 1,
  q 1 0 (-4) (-2) (-2) 1 1,
  q 1 (-1) (-2) (-4) (-2) 1 1,
  q 1 (-2) 2 2 2 1 1,
  q 1 (-1) (-2) 2 0 1 0,
  q 1 2 0 0 0 1 0,
  q 1 (-2) (-2) (-2) (-2) 1 1,
  q 1 0 (-2) (-6) (-2) 1 1,
  q 0 0 1 0 2 1 1,
  q 1 0 2 4 1 1 1,
  q 0 0 2 (-3) 1 1 1,
  q 3 0 (-2) (-2) (-1) 1 1,
  q 1 1 0 (-1) 0 1 0,
  q 2 0 2 (-4) 2 1 1,
  q 0 1 4 (-2) 2 1 1,
  q 1 0 0 (-1) (-2) 1 1,
  q 1 1 (-2) (-4) (-1) 1 1,
  q 2 (-1) 0 0 (-1) 1 1,
  q 0 1 2 (-2) (-1) 1 1,
  q 1 0 0 1 (-1) 1 1,
  q 1 2 0 (-2) (-1) 1 1,
  q 2 0 0 (-1) 0 1 0,
  q 0 0 1 1 1 1 1,
  q 2 0 4 (-2) 2 1 1,
  q 0 0 2 3 2 1 1,
  q 0 1 (-2) 2 1 1 1,
  q 0 0 4 0 1 1 1,
  q 1 0 0 4 1 1 1,
  q 1 1 0 2 1 1 1,
  q 2 1 (-2) 0 0 1 1,
  q 2 0 (-2) (-6) (-2) 1 1,
  q 2 (-1) 0 0 1 1 1,
  q 2 0 (-4) (-2) (-2) 1 1,
  q 1 1 0 1 0 1 0,
  q 2 (-1) 0 2 0 1 1,
  q 2 0 2 1 2 1 1,
  q 0 0 4 (-4) 2 1 1,
  q 3 0 (-2) (-2) (-2) 1 1,
  q 2 (-1) 0 (-2) 1 1 1,
  q 1 (-1) 0 2 1 1 1,
  q 0 0 0 4 (-1) 1 1,
  q 3 0 0 2 0 1 1,
  q 1 2 2 (-2) 2 1 1,
  q 1 0 2 (-2) (-1) 1 1,
  q 2 (-2) 0 (-2) (-1) 1 1,
  q 1 0 (-2) 2 1 1 1,
  q 1 (-1) 0 2 (-1) 1 1,
  q 2 0 0 (-3) 0 1 0,
  q 2 1 2 (-2) 1 1 1,
  q 1 0 2 (-1) 1 1 1,
  q 1 0 4 (-2) 1 1 1,
  q 1 (-1) 2 (-2) 1 1 1,
  q 1 0 (-2) 1 (-2) 1 1,
  q 1 1 2 1 2 1 1,
  q 1 (-2) 2 0 2 1 1,
  q 2 (-1) 2 (-2) 2 1 1]

private def xyLunSol_2 : List Freq := [
  q 4 0 2 0 1 1 1,
  q 0 1 2 1 1 1 1,
  q 3 1 2 0 2 1 1,
  q 1 1 2 (-4) 1 1 1,
  q 1 0 2 (-3) 2 1 0,
  q 2 0 (-2) (-2) 0 1 1,
  q 1 1 (-2) 2 (-1) 1 1,
  q 1 0 2 (-3) 1 1 1,
  q 2 0 0 2 (-1) 1 1,
  q 1 0 (-2) 1 0 1 0,
  q 2 0 0 0 (-2) 1 1,
  q 0 1 0 1 (-1) 1 1,
  q 0 1 0 (-4) 0 1 1,
  q 3 (-1) 2 0 2 1 1,
  q 0 1 0 1 1 1 1,
  q 0 1 0 2 (-1) 1 1,
  q 1 0 (-1) 0 (-3) 1 1,
  q 2 1 (-2) (-2) (-2) 1 1,
  q 1 0 2 1 1 1 1,
  q 1 (-2) 0 (-2) 0 1 1,
  q 0 0 1 0 0 1 0,
  q 1 0 2 (-4) 0 1 0,
  q 2 0 2 (-1) 2 1 1,
  q 0 0 2 (-2) 3 1 1,
  q 1 0 2 (-4) 2 1 1,
  q 0 2 2 0 2 1 1,
  q 1 (-1) 2 (-2) 2 1 1,
  q 1 0 2 2 0 1 1,
  q 0 2 0 0 (-1) 1 1,
  q 1 0 0 4 0 1 1,
  q 2 1 2 0 1 1 1,
  q 1 1 (-2) 0 (-1) 1 1,
  q 0 0 2 0 3 1 1,
  q 1 (-2) 0 0 0 1 0,
  q 2 0 (-4) 0 (-2) 1 1,
  q 1 (-1) 0 (-2) 1 1 1,
  q 2 0 2 (-2) 0 1 1,
  q 1 0 (-2) (-1) (-2) 1 1,
  q 1 1 (-2) 1 (-1) 1 1,
  q 2 (-1) 0 (-2) 0 1 1,
  q 4 0 0 0 0 1 1,
  q 0 2 (-2) 2 0 1 0,
  q 2 (-1) 2 2 2 1 1,
  q 0 1 (-2) (-4) (-2) 1 1,
  q 1 0 (-2) (-3) (-2) 1 1,
  q 2 0 0 0 2 1 1,
  q 2 (-1) 2 0 1 1 1,
  q 0 1 (-2) 1 (-2) 1 1,
  q 1 0 (-4) 2 (-2) 1 1,
  q 0 2 (-2) 0 (-2) 1 1,
  q 1 0 0 (-3) 0 1 1,
  q 3 0 (-2) 0 (-1) 1 1,
  q 1 1 0 2 0 1 1,
  q 0 1 2 2 1 1 1,
  q 3 0 0 0 1 1 1,
  q 2 0 (-2) 2 (-1) 1 1,
  q 2 0 0 (-2) 2 2 1,
  q 1 2 (-2) (-2) (-2) 2 1,
  q 1 (-1) (-2) (-2) (-1) 2 1,
  q 2 1 0 (-2) 1 2 1,
  q 2 (-1) (-2) 0 (-1) 2 1,
  q 2 1 0 (-4) 0 1 2,
  q 1 0 2 0 (-1) 2 1,
  q 0 2 2 (-2) 1 2 1,
  q 2 1 (-2) (-4) (-2) 2 1,
  q 4 0 2 (-2) 2 2 2,
  q 1 (-1) 2 2 1 2 1,
  q 1 (-1) (-2) 0 (-1) 2 1,
  q 0 2 0 0 1 2 1,
  q 0 0 0 2 (-2) 2 2,
  q 1 (-1) 0 (-2) (-2) 2 1,
  q 2 0 2 (-4) 1 2 1,
  q 2 1 (-2) 0 (-1) 2 1,
  q 0 2 (-2) (-2) (-2) 2 2,
  q 2 0 0 (-4) 1 2 1,
  q 1 0 0 (-4) 1 2 1,
  q 3 0 2 2 2 2 2,
  q 2 0 0 2 1 2 2,
  q 1 (-1) (-2) 2 (-1) 2 1,
  q 1 (-1) 0 (-2) (-1) 2 2,
  q 0 0 2 4 1 2 2,
  q 1 1 0 (-4) 0 1 2,
  q 1 1 2 2 2 2 2,
  q 0 0 2 (-1) 1 2 1,
  q 3 0 0 (-4) 0 1 2,
  q 2 0 0 (-4) (-1) 2 2,
  q 1 0 0 (-1) 1 6 6,
  q 3 0 0 0 (-1) 2 2,
  q 1 1 (-2) 0 (-2) 2 2,
  q 2 1 0 (-2) (-1) 2 2,
  q 1 0 2 4 2 2 2,
  q 0 0 4 (-2) 1 2 2,
  q 2 0 0 (-2) (-2) 3 3,
  q 1 1 (-2) (-4) (-2) 2 2,
  q 3 0 2 (-2) 1 2 2,
  q 0 0 0 4 1 2 2,
  q 0 0 4 0 2 2 2,
  q 0 1 0 (-2) (-1) 2 2,
  q 0 0 2 (-3) 2 2 2,
  q 0 0 2 (-4) 1 2 2,
  q 0 2 0 (-2) 0 1 2,
  q 2 (-2) 0 (-2) 0 1 1,
  q 2 0 2 2 1 2 2,
  q 1 0 0 (-4) (-1) 2 2,
  q 1 0 (-4) 0 (-1) 2 2,
  q 0 1 0 2 1 2 2,
  q 0 1 2 1 2 2 2,
  q 1 0 4 (-2) 2 2 2,
  q 2 0 (-2) (-4) (-1) 2 2,
  q 2 1 2 (-2) 2 2 2,
  q 4 0 2 0 2 2 2,
  q 0 3 0 0 0 1 2,
  q 1 2 0 (-2) 0 1 2,
  q 0 0 1 (-1) 0 20 1,
  q 1 1 0 0 (-1) 2 2,
  q 2 1 0 0 0 1 2,
  q 2 0 (-2) (-2) (-1) 2 2,
  q 1 1 2 (-2) 1 2 2,
  q 1 0 (-2) 1 (-1) 2 2,
  q 1 0 0 1 0 1 2,
  q 1 0 (-2) (-4) (-1) 2 2,
  q 1 0 (-1) 0 0 1 1,
  q 2 0 2 0 0 1 2,
  q 1 0 0 (-2) 2 2 2,
  q 0 0 1 0 1 2 2,
  q 1 0 (-2) 0 1 2 2,
  q 1 0 2 1 2 2 2,
  q 1 0 2 (-1) 2 2 2,
  q 0 0 2 1 1 2 2,
  q 2 (-1) 0 0 0 1 2,
  q 1 0 (-2) 2 (-2) 2 2,
  q 1 (-1) 0 0 (-1) 2 2,
  q 0 0 2 2 0 1 2,
  q 1 0 0 (-2) (-2) 2 2,
  q 0 0 0 1 (-1) 2 2,
  q 1 0 (-1) 0 (-2) 2 2,
  q 2 1 2 0 2 2 2,
  q 0 3 2 (-2) 2 2 2,
  q 0 1 0 (-2) 1 2 2,
  q 1 1 2 0 1 2 2,
  q 1 1 0 0 1 2 2,
  q 1 (-1) 0 2 0 1 2,
  q 0 0 0 4 0 1 2,
  q 1 (-1) (-2) 0 (-2) 2 2,
  q 0 0 0 2 2 2 2,
  q 0 0 0 1 1 2 2,
  q 2 (-1) 2 0 2 2 2,
  q 1 (-1) 2 0 1 2 2,
  q 0 1 0 1 0 1 2,
  q 0 1 (-2) (-2) (-1) 2 2,
  q 0 1 2 2 2 2 2,
  q 1 0 (-2) 2 0 1 2,
  q 2 0 0 2 0 1 2,
  q 1 1 (-2) (-2) (-1) 2 2,
  q 1 (-1) (-2) (-2) (-2) 2 2,
  q 1 0 2 (-4) 1 2 2,
  q 3 0 2 0 1 2 2,
  q 1 (-1) 2 2 2 2 2,
  q 0 1 0 0 (-2) 2 2,
  q 1 0 (-2) (-2) 0 2 2,
  q 1 (-1) 0 (-1) (-2) 2 2,
  q 0 1 2 (-2) 0 1 2,
  q 0 1 0 2 0 1 2,
  q 1 0 0 2 (-1) 2 2,
  q 1 (-1) 0 0 1 2 2,
  q 0 0 2 4 2 2 2,
  q 0 0 2 (-1) 2 2 2,
  q 1 0 2 (-2) 0 1 2,
  q 1 1 0 (-2) 1 2 2,
  q 0 1 0 0 2 2 2,
  q 0 1 (-2) 0 (-1) 2 2,
  q 0 1 (-2) 2 0 1 2,
  q 0 0 2 0 (-1) 2 2,
  q 1 (-1) 0 (-2) 0 1 2,
  q 2 0 (-2) 0 1 2 2,
  q 1 1 0 (-2) (-1) 2 2,
  q 0 0 4 (-2) 2 2 2,
  q 3 0 2 (-2) 2 2 2,
  q 2 1 0 (-2) 0 1 2,
  q 0 1 2 0 1 2 2,
  q 0 0 2 (-2) (-1) 3 3,
  q 2 0 2 2 2 2 2,
  q 1 0 (-4) 0 (-2) 2 2,
  q 1 0 0 (-1) (-1) 5 5,
  q 1 0 0 2 1 2 2,
  q 2 0 0 (-4) 0 1 2,
  q 2 0 (-2) (-4) (-2) 2 2,
  q 2 0 2 (-2) 1 2 2,
  q 1 0 0 (-4) 0 2 2,
  q 1 1 2 (-2) 2 2 2,
  q 2 0 (-2) (-2) (-2) 3 3,
  q 1 0 0 0 (-2) 2 2,
  q 3 0 0 0 0 2 2,
  q 1 0 (-2) (-4) (-2) 2 2,
  q 1 0 2 2 1 2 2,
  q 0 2 (-2) 2 (-1) 2 2,
  q 1 (-1) 0 (-1) (-1) 2 2,
  q 0 0 2 1 2 2 2,
  q 1 0 0 0 2 2 2,
  q 1 0 (-1) 0 (-1) 3 3]

private def xyLunSol_3 : List Freq := [
  q 1 1 2 0 2 2 2,
  q 1 0 (-2) 2 (-1) 2 2,
  q 0 1 (-2) (-2) (-2) 2 2,
  q 2 0 0 0 1 2 2,
  q 1 1 (-2) (-2) (-2) 2 2,
  q 1 (-1) 2 0 2 2 2,
  q 3 0 2 0 2 2 2,
  q 2 0 0 0 (-1) 2 2,
  q 1 (-1) 0 (-1) 0 1 2,
  q 2 0 (-2) 0 (-2) 3 2,
  q 1 0 2 0 0 2 2,
  q 1 1 0 0 0 2 2,
  q 0 0 0 0 0 408 294,
  q 1 0 0 (-1) 0 6 3,
  q 1 0 (-2) 0 0 2 2,
  q 0 1 (-1) 1 (-1) 2 2,
  q 0 0 0 1 0 2 2,
  q 0 1 0 (-2) 0 2 2,
  q 1 (-1) 0 0 0 2 2,
  q 0 1 2 (-2) 1 2 2,
  q 2 0 0 (-2) 1 9 8,
  q 1 0 0 2 0 2 2,
  q 2 0 2 0 1 3 3,
  q 0 0 0 2 (-1) 2 2,
  q 0 1 (-2) 2 (-1) 2 2,
  q 2 0 2 (-2) 2 3 2,
  q 1 1 0 (-2) 0 2 2,
  q 2 0 0 (-2) (-1) 12 12,
  q 1 0 2 (-2) 1 2 2,
  q 0 1 (-2) 0 (-2) 2 2,
  q 0 0 1 (-1) 1 55 53,
  q 0 1 2 0 2 2 3,
  q 1 0 2 2 2 2 2,
  q 0 0 0 2 1 2 2,
  q 0 0 2 2 1 2 2,
  q 2 0 (-2) 0 0 3 2,
  q 1 0 (-2) (-2) (-1) 3 3,
  q 0 1 0 0 (-1) 3 3,
  q 0 2 0 0 0 3 2,
  q 0 2 2 (-2) 2 3 3,
  q 1 0 0 (-2) 1 4 4,
  q 1 0 0 (-2) (-1) 4 4,
  q 0 1 0 0 1 3 3,
  q 0 0 2 (-2) 0 9 3,
  q 0 0 2 0 0 3 2,
  q 1 0 (-2) 0 (-1) 4 4,
  q 2 0 0 0 0 4 2,
  q 1 0 2 (-2) 2 5 4,
  q 2 0 2 0 2 4 4,
  q 0 2 (-2) 2 (-2) 3 3,
  q 0 0 2 2 2 4 3,
  q 2 0 0 (-2) 0 21 5,
  q 2 0 (-2) 0 (-1) 3 3,
  q 0 0 0 2 0 6 2,
  q 1 0 (-2) (-2) (-2) 7 6,
  q 1 0 2 0 1 4 4,
  q 1 0 0 0 (-1) 6 5,
  q 1 0 0 0 1 6 5,
  q 1 0 (-2) 0 (-2) 6 6,
  q 1 0 0 (-2) 0 16 3,
  q 0 0 2 (-2) 1 28 25,
  q 0 1 (-2) 2 (-2) 3 3,
  q 1 0 2 0 2 9 5,
  q 0 0 2 0 1 3 3,
  q 0 1 2 (-2) 2 3 3,
  q 1 0 0 0 0 14 5,
  q 0 1 0 0 0 3 4,
  q 0 0 0 0 2 9 8,
  q 0 0 2 0 2 15 15,
  q 0 0 2 (-2) 2 8 8,
  q 0 0 0 0 1 53 47]

/-- `XyLunSol` (xycip06a_xy.cpp:61-398). -/
def xyLunSol : List Freq := xyLunSol_0 ++ xyLunSol_1 ++ xyLunSol_2 ++ xyLunSol_3

private def xyPln_0 : List Pln := [
  p 0 0 0 0 0 0 0 0 0 0 11 0 0,
  p 0 0 0 0 0 0 0 0 0 0 0 11 0,
  p 0 0 0 0 0 0 0 0 0 0 (-12) 0 0,
  p 0 0 0 0 0 0 0 0 0 0 0 10 0,
  p 0 0 0 0 0 0 0 0 0 0 12 0 0,
  p 0 0 0 0 0 0 0 0 0 0 0 (-10) 0,
  p 0 0 0 0 0 0 0 0 0 0 12 0 0,
  p 0 0 0 0 0 0 0 0 0 0 0 (-10) 0,
  p 0 0 0 0 0 0 0 0 0 0 12 0 0,
  p 0 0 0 0 0 0 0 0 0 0 0 10 0,
  p 0 0 0 0 0 0 0 0 0 0 (-12) 0 0,
  p 0 0 0 0 0 0 0 0 0 0 (-12) 0 0,
  p 0 0 0 0 0 0 0 0 0 0 (-12) 0 0,
  p 0 0 0 0 0 0 0 0 0 0 12 0 0,
  p 0 0 0 0 0 0 0 0 0 0 12 0 0,
  p 0 0 0 0 0 0 0 0 0 0 12 0 0,
  p 0 0 0 0 0 0 0 0 0 0 (-12) 0 0,
  p 0 0 0 0 0 0 0 0 0 0 12 0 0,
  p 0 0 0 0 0 0 0 0 0 0 (-12) 0 0,
  p 0 0 0 0 0 0 0 0 0 0 (-12) 0 0,
  p 0 0 0 0 0 0 0 0 0 0 12 0 0,
  p 13 0 (-6) 7 0 0 0 0 0 0 0 12 0,
  p 0 0 0 0 0 0 0 0 0 0 (-12) 0 0,
  p 0 0 0 0 0 0 0 0 0 0 (-12) 0 0,
  p 0 0 0 0 0 0 0 0 0 0 12 0 0,
  p 0 0 0 0 0 0 0 0 0 0 (-12) 0 0,
  p 23 0 0 8 (-15) 0 0 0 0 0 (-12) 0 0,
  p 0 0 0 0 0 0 0 0 0 0 (-12) 0 0,
  p 0 0 0 0 0 0 0 0 0 0 (-12) 0 0,
  p 0 0 0 0 0 0 0 0 0 0 (-12) 0 0,
  p 0 0 0 0 0 0 0 0 0 0 0 10 0,
  p 1 0 0 1 0 0 0 0 0 0 0 12 0,
  p 0 0 0 0 0 0 0 0 0 0 (-12) 0 0,
  p 0 0 0 0 0 0 0 0 0 0 (-12) 0 0,
  p 0 0 0 0 0 0 0 0 0 0 (-12) 0 0,
  p 0 0 0 0 0 0 0 0 0 0 (-12) 0 0,
  p 0 0 0 0 0 0 0 0 0 0 12 0 0,
  p 0 0 0 0 0 0 0 0 0 0 12 0 0,
  p 0 0 0 0 0 0 0 0 0 0 12 0 0,
  p 0 0 0 0 0 0 0 0 0 0 (-12) 0 0,
  p 0 0 0 0 0 0 0 0 0 0 12 0 0,
  p 0 0 0 0 0 0 0 0 0 0 (-12) 0 0,
  p 0 0 0 0 0 0 0 0 0 0 12 0 0,
  p 0 0 0 0 0 0 0 0 0 0 12 0 0,
  p 0 0 0 0 0 0 0 0 0 0 12 0 0,
  p 0 0 0 0 0 0 0 0 0 0 (-12) 0 0,
  p 0 0 0 0 0 0 0 0 0 0 (-16) 0 0,
  p 0 0 0 0 0 0 0 0 0 0 0 (-10) 0,
  p 0 0 0 0 0 0 0 0 0 0 16 0 0,
  p 1 0 0 1 0 0 0 0 0 0 0 (-16) 0,
  p 0 0 0 0 0 0 0 0 0 0 16 0 0,
  p 0 0 0 0 0 0 0 0 0 0 16 0 0,
  p 0 0 0 0 0 0 0 0 0 0 (-16) 0 0,
  p 0 0 0 0 0 0 0 0 0 0 (-16) 0 0,
  p 0 0 0 0 0 0 0 0 0 0 16 0 0,
  p 0 0 0 0 0 0 0 0 0 0 16 0 0,
  p 0 0 0 0 0 0 0 0 0 0 16 0 0,
  p 0 0 0 0 0 0 0 0 0 0 16 0 0,
  p 0 0 0 0 0 0 0 0 0 0 (-16) 0 0,
  p 0 0 0 0 0 0 0 0 0 0 16 0 0,
  p 0 0 0 0 0 0 0 0 0 0 0 17 0,
  p 0 0 0 0 0 0 0 0 0 0 (-20) 0 0,
  p 0 0 0 0 0 0 0 0 0 0 0 20 0,
  p 0 0 0 0 0 0 0 0 0 0 20 0 0,
  p 0 0 0 0 0 0 0 0 0 0 0 (-20) 0,
  p 0 0 0 0 0 0 0 0 0 0 20 0 0,
  p 0 0 0 0 0 0 0 0 0 0 0 20 0,
  p 0 0 0 0 0 0 0 0 0 0 0 20 0,
  p 0 0 0 0 0 0 0 0 0 0 20 0 0,
  p 0 0 0 0 0 0 0 0 0 0 0 (-20) 0,
  p 0 0 0 0 0 0 0 0 0 0 20 0 0,
  p 0 0 0 0 0 0 0 0 0 0 0 (-20) 0,
  p 0 0 0 0 0 0 0 0 0 0 (-20) 0 0,
  p 0 0 0 0 0 0 0 0 0 0 0 (-20) 0,
  p 0 0 0 0 0 0 0 0 0 0 20 0 0,
  p 0 0 0 0 0 0 0 0 0 0 0 20 0,
  p 0 0 0 0 0 0 0 0 0 0 (-20) 0 0,
  p 0 0 0 0 0 0 0 0 0 0 0 (-20) 0,
  p 0 0 0 0 0 0 0 0 0 0 0 (-20) 0,
  p 0 0 0 0 0 0 0 0 0 0 (-20) 0 0,
  p 0 0 0 0 0 0 0 0 0 0 20 0 0,
  p 0 0 0 0 0 0 0 0 0 0 0 20 0,
  p 0 0 0 0 0 0 0 0 0 0 (-20) 0 0,
  p 0 0 0 0 0 0 0 0 0 0 20 0 0,
  p 0 0 0 0 0 0 0 0 0 0 (-20) 0 0,
  p 0 0 0 0 0 0 0 0 0 0 20 0 0,
  p 0 0 0 0 0 0 0 0 0 0 0 20 0,
  p 0 0 0 0 0 0 0 0 0 0 (-20) 0 0,
  p 0 0 0 0 0 0 0 0 0 0 20 0 0,
  p 0 0 0 0 0 0 0 0 0 0 0 (-20) 0,
  p 0 0 0 0 0 0 0 0 0 0 20 0 0,
  p 0 0 0 0 0 0 0 0 0 0 0 (-20) 0,
  p 0 0 0 0 0 0 0 0 0 0 (-20) 0 0,
  p 0 0 0 0 0 0 0 0 0 0 0 (-20) 0,
  p 0 0 0 0 0 0 0 0 0 0 (-20) 0 0,
  p 0 0 0 0 0 0 0 0 0 0 0 20 0,
  p 0 0 0 0 0 0 0 0 0 0 (-20) 0 0,
  p 0 0 0 0 0 0 0 0 0 0 0 (-20) 0,
  p 0 0 0 0 0 0 0 0 0 0 20 0 0,
  p 0 0 0 0 0 0 0 0 0 0 0 20 0,
  p 0 0 0 0 0 0 0 0 0 0 16 0 0,
  p 0 0 0 0 0 0 0 0 0 0 0 20 0,
  p 0 0 0 0 0 0 0 0 0 0 16 0 0,
  p 0 0 0 0 0 0 0 0 0 0 0 (-20) 0,
  p 0 0 0 0 0 0 0 0 0 0 16 0 0,
  p 0 0 0 0 0 0 0 0 0 0 0 (-20) 0,
  p 0 0 0 0 0 0 0 0 0 0 16 0 0,
  p 0 0 0 0 0 0 0 0 0 0 0 20 0,
  p 0 0 0 0 0 0 0 0 0 0 16 0 0,
  p 0 0 0 0 0 0 0 0 0 0 0 (-20) 0,
  p 0 0 0 0 0 0 0 0 0 0 16 0 0,
  p 0 0 0 0 0 0 0 0 0 0 0 20 0,
  p 0 0 0 0 0 0 0 0 0 0 16 0 0,
  p 0 0 0 0 0 0 0 0 0 0 0 20 0,
  p 0 0 0 0 0 0 0 0 0 0 (-16) 0 0,
  p 0 0 0 0 0 0 0 0 0 0 0 (-20) 0,
  p 0 0 0 0 0 0 0 0 0 0 (-16) 0 0,
  p 0 0 0 0 0 0 0 0 0 0 0 (-20) 0,
  p 0 0 0 0 0 0 0 0 0 0 (-16) 0 0,
  p 0 0 0 0 0 0 0 0 0 0 0 20 0,
  p 0 0 0 0 0 0 0 0 0 0 16 0 0,
  p 0 0 0 0 0 0 0 0 0 0 0 (-20) 0,
  p 0 0 0 0 0 0 0 0 0 0 16 0 0,
  p 0 0 0 0 0 0 0 0 0 0 0 20 0,
  p 0 0 0 0 0 0 0 0 0 0 (-16) 0 0,
  p 0 0 0 0 0 0 0 0 0 0 0 20 0,
  p 0 0 0 0 0 0 0 0 0 0 16 0 0,
  p 0 0 0 0 0 0 0 0 0 0 0 (-20) 0,
  p 0 0 0 0 0 0 0 0 0 0 16 0 0,
  p 0 0 0 0 0 0 0 0 0 0 0 (-20) 0,
  p 0 0 0 0 0 0 0 0 0 0 (-16) 0 0,
  p 0 0 0 0 0 0 0 0 0 0 0 (-20) 0,
  p 0 0 0 0 0 0 0 0 0 0 16 0 0,
  p 0 0 0 0 0 0 0 0 0 0 0 (-20) 0,
  p 0 0 0 0 0 0 0 0 0 0 (-16) 0 0,
  p 0 0 0 0 0 0 0 0 0 0 0 20 0,
  p 0 0 0 0 0 0 0 0 0 0 16 0 0,
  p 0 0 0 0 0 0 0 0 0 0 0 20 0,
  p 0 0 0 0 0 0 0 0 0 0 16 0 0,
  p 0 0 0 0 0 0 0 0 0 0 0 20 0,
  p 0 0 0 0 0 0 0 0 0 0 (-16) 0 0,
  p 0 0 0 0 0 0 0 0 0 0 0 20 0,
  p 0 0 0 0 0 0 0 0 0 0 16 0 0,
  p 0 0 0 0 0 0 0 0 0 0 0 20 0,
  p 0 0 0 0 0 0 0 0 0 0 (-16) 0 0,
  p 0 0 0 0 0 0 0 0 0 0 0 20 0,
  p 0 0 0 0 0 0 0 0 0 0 16 0 0,
  p 0 0 0 0 0 0 0 0 0 0 0 20 0,
  p 0 0 0 0 0 0 0 0 0 0 (-16) 0 0,
  p 0 0 0 0 0 0 0 0 0 0 0 20 0,
  p 0 0 0 0 0 0 0 0 0 0 (-16) 0 0,
  p 0 0 0 0 0 0 0 0 0 0 0 (-20) 0,
  p 0 0 0 0 0 0 0 0 0 0 (-16) 0 0,
  p 0 0 0 0 0 0 0 0 0 0 0 20 0,
  p 0 0 0 0 0 0 0 0 0 0 16 0 0,
  p 0 0 0 0 0 0 0 0 0 0 0 (-20) 0,
  p 0 0 0 0 0 0 0 0 0 0 16 0 0,
  p 0 0 0 0 0 0 0 0 0 0 0 (-20) 0,
  p 0 0 0 0 0 0 0 0 0 0 (-12) 0 0,
  p 0 0 0 0 0 0 0 0 0 0 0 (-20) 0,
  p 0 0 0 0 0 0 0 0 0 0 12 0 0,
  p 0 0 0 0 0 0 0 0 0 0 0 20 0,
  p 0 0 0 0 0 0 0 0 0 0 (-12) 0 0,
  p 0 0 0 0 0 0 0 0 0 0 0 20 0,
  p 0 0 0 0 0 0 0 0 0 0 12 0 0,
  p 0 0 0 0 0 0 0 0 0 0 0 (-20) 0,
  p 0 0 0 0 0 0 0 0 0 0 12 0 0,
  p 0 0 0 0 0 0 0 0 0 0 0 (-20) 0,
  p 0 0 0 0 0 0 0 0 0 0 12 0 0,
  p 0 0 0 0 0 0 0 0 0 0 0 20 0,
  p 0 0 0 0 0 0 0 0 0 0 12 0 0,
  p 0 0 0 0 0 0 0 0 0 0 0 (-20) 0,
  p 0 0 0 0 0 0 0 0 0 0 12 0 0,
  p 0 0 0 0 0 0 0 0 0 0 0 20 0,
  p 0 0 0 0 0 0 0 0 0 0 12 0 0,
  p 0 0 0 0 0 0 0 0 0 0 0 (-20) 0,
  p 0 0 0 0 0 0 0 0 0 0 (-12) 0 0,
  p 0 0 0 0 0 0 0 0 0 0 0 20 0,
  p 0 0 0 0 0 0 0 0 0 0 (-12) 0 0,
  p 0 0 0 0 0 0 0 0 0 0 0 20 0,
  p 0 0 0 0 0 0 0 0 0 0 (-12) 0 0,
  p 0 0 0 0 0 0 0 0 0 0 0 20 0,
  p 0 0 0 0 0 0 0 0 0 0 12 0 0,
  p 0 0 0 0 0 0 0 0 0 0 0 20 0,
  p 1 0 0 1 0 0 0 0 0 0 0 12 0,
  p 1 0 0 1 0 0 0 0 0 0 20 0 0,
  p 0 0 0 0 0 0 0 0 0 0 0 (-12) 0,
  p 0 0 0 0 0 0 0 0 0 0 20 0 0,
  p 0 0 0 0 0 0 0 0 0 0 (-12) 0 0,
  p 0 0 0 0 0 0 0 0 0 0 0 (-20) 0,
  p 0 0 0 0 0 0 0 0 0 0 (-12) 0 0,
  p 0 0 0 0 0 0 0 0 0 0 0 20 0,
  p 0 0 0 0 0 0 0 0 0 0 12 0 0,
  p 0 0 0 0 0 0 0 0 0 0 0 20 0,
  p 0 0 0 0 0 0 0 0 0 0 12 0 0,
  p 0 0 0 0 0 0 0 0 0 0 0 (-20) 0,
  p 0 0 0 0 0 0 0 0 0 0 (-12) 0 0,
  p 0 0 0 0 0 0 0 0 0 0 0 20 0,
  p 0 0 0 0 0 0 0 0 0 0 12 0 0,
  p 0 0 0 0 0 0 0 0 0 0 0 20 0]

private def xyPln_1 : List Pln := [
  p 1 0 0 1 0 0 0 0 0 0 0 (-12) 0,
  p 1 0 0 1 0 0 0 0 0 0 (-20) 0 0,
  p 0 0 0 0 0 0 0 0 0 0 0 (-21) 0,
  p 10 0 0 3 (-7) 0 0 0 0 0 12 0 0,
  p 10 0 0 3 (-7) 0 0 0 0 0 (-10) (-20) 0,
  p 0 0 0 0 0 0 0 0 0 0 (-24) 0 0,
  p 0 0 0 0 0 0 0 0 0 0 0 20 0,
  p 0 0 0 0 0 0 0 0 0 0 24 0 0,
  p 0 0 0 0 0 0 0 0 0 0 (-24) 0 0,
  p 0 0 0 0 0 0 0 0 0 0 (-24) 0 0,
  p 0 0 0 0 0 0 0 0 0 0 24 0 0,
  p 0 0 0 0 0 0 0 0 0 0 0 20 0,
  p 0 0 0 0 0 0 0 0 0 0 24 0 0,
  p 0 0 0 0 0 0 0 0 0 0 24 0 0,
  p 0 0 0 0 0 0 0 0 0 0 12 24 0,
  p 0 0 0 0 0 0 0 0 0 0 (-28) 0 0,
  p 0 0 0 0 0 0 0 0 0 0 28 0 0,
  p 0 0 0 0 0 0 0 0 0 0 28 0 0,
  p 0 0 0 0 0 0 0 0 0 0 28 0 0,
  p 0 0 0 0 0 0 0 0 0 0 28 0 0,
  p 0 0 0 0 0 0 0 0 0 0 28 0 0,
  p 0 0 0 0 0 0 0 0 0 0 28 0 0,
  p 0 0 0 0 0 0 0 0 0 0 28 0 0,
  p 0 0 0 0 0 0 0 0 0 0 28 0 0,
  p 0 0 0 0 0 0 0 0 0 0 0 30 0,
  p 0 0 0 0 0 0 0 0 0 0 (-28) 0 0,
  p 0 0 0 0 0 0 0 0 0 0 0 30 0,
  p 0 0 0 0 0 0 0 0 0 0 28 0 0,
  p 0 0 0 0 0 0 0 0 0 0 0 30 0,
  p 0 0 0 0 0 0 0 0 0 0 28 0 0,
  p 0 0 0 0 0 0 0 0 0 0 0 (-30) 0,
  p 0 0 0 0 0 0 0 0 0 0 (-28) 0 0,
  p 0 0 0 0 0 0 0 0 0 0 0 30 0,
  p 0 0 0 0 0 0 0 0 0 0 28 0 0,
  p 0 0 0 0 0 0 0 0 0 0 0 (-30) 0,
  p 0 0 0 0 0 0 0 0 0 0 28 0 0,
  p 0 0 0 0 0 0 0 0 0 0 0 30 0,
  p 0 0 0 0 0 0 0 0 0 0 28 0 0,
  p 0 0 0 0 0 0 0 0 0 0 0 (-30) 0,
  p 0 0 0 0 0 0 0 0 0 0 24 0 0,
  p 0 0 0 0 0 0 0 0 0 0 0 (-30) 0,
  p 0 0 0 0 0 0 0 0 0 0 (-24) 0 0,
  p 0 0 0 0 0 0 0 0 0 0 0 30 0,
  p 0 0 0 0 0 0 0 0 0 0 (-24) 0 0,
  p 0 0 0 0 0 0 0 0 0 0 0 30 0,
  p 0 0 0 0 0 0 0 0 0 0 (-24) 0 0,
  p 0 0 0 0 0 0 0 0 0 0 0 (-30) 0,
  p 0 0 0 0 0 0 0 0 0 0 24 0 0,
  p 0 0 0 0 0 0 0 0 0 0 0 (-30) 0,
  p 0 0 0 0 0 0 0 0 0 0 24 0 0,
  p 0 0 0 0 0 0 0 0 0 0 0 30 0,
  p 0 0 0 0 0 0 0 0 0 0 (-24) 0 0,
  p 0 0 0 0 0 0 0 0 0 0 0 30 0,
  p 1 0 0 1 0 0 0 0 0 0 0 (-20) 0,
  p 35 0 (-18) 17 0 0 0 0 0 0 0 (-24) 0,
  p 1 0 0 1 0 0 0 0 0 0 20 0 0,
  p 35 0 (-18) 17 0 0 0 0 0 0 30 0 0,
  p 0 0 0 0 0 0 0 0 0 0 24 0 0,
  p 0 0 0 0 0 0 0 0 0 0 0 30 0,
  p 0 0 0 0 0 0 0 0 0 0 (-24) 0 0,
  p 0 0 0 0 0 0 0 0 0 0 0 30 0,
  p 0 0 0 0 0 0 0 0 0 0 24 0 0,
  p 0 0 0 0 0 0 0 0 0 0 0 (-30) 0,
  p 0 0 0 0 0 0 0 0 0 0 24 0 0,
  p 0 0 0 0 0 0 0 0 0 0 0 (-30) 0,
  p 0 0 0 0 0 0 0 0 0 0 24 0 0,
  p 0 0 0 0 0 0 0 0 0 0 0 (-30) 0,
  p 0 0 0 0 0 0 0 0 0 0 (-24) 0 0,
  p 0 0 0 0 0 0 0 0 0 0 0 (-30) 0,
  p 0 0 0 0 0 0 0 0 0 0 20 0 0,
  p 0 0 0 0 0 0 0 0 0 0 0 (-30) 0,
  p 0 0 0 0 0 0 0 0 0 0 20 0 0,
  p 0 0 0 0 0 0 0 0 0 0 0 30 0,
  p 0 0 0 0 0 0 0 0 0 0 20 0 0,
  p 0 0 0 0 0 0 0 0 0 0 0 30 0,
  p 0 0 0 0 0 0 0 0 0 0 20 0 0,
  p 0 0 0 0 0 0 0 0 0 0 0 (-30) 0,
  p 0 0 0 0 0 0 0 0 0 0 20 0 0,
  p 0 0 0 0 0 0 0 0 0 0 0 (-30) 0,
  p 0 0 0 0 0 0 0 0 0 0 (-20) 0 0,
  p 0 0 0 0 0 0 0 0 0 0 0 (-30) 0,
  p 0 0 0 0 0 0 0 0 0 0 20 0 0,
  p 0 0 0 0 0 0 0 0 0 0 0 (-30) 0,
  p 0 0 0 0 0 0 0 0 0 0 20 0 0,
  p 0 0 0 0 0 0 0 0 0 0 0 (-30) 0,
  p 0 0 0 0 0 0 0 0 0 0 20 0 0,
  p 0 0 0 0 0 0 0 0 0 0 0 (-30) 0,
  p 1 0 0 (-1) 0 0 0 0 0 0 0 20 0,
  p 1 0 0 (-1) 0 0 0 0 0 0 30 0 0,
  p 40 0 20 (-20) 0 0 0 0 0 0 (-20) 0 0,
  p 40 0 20 (-20) 0 0 0 0 0 0 0 (-30) 0,
  p 0 0 0 0 0 0 0 0 0 0 20 0 0,
  p 0 0 0 0 0 0 0 0 0 0 0 30 0,
  p 0 0 0 0 0 0 0 0 0 0 20 0 0,
  p 0 0 0 0 0 0 0 0 0 0 0 (-30) 0,
  p 0 0 0 0 0 0 0 0 0 0 24 (-12) 0,
  p 0 0 0 0 0 0 0 0 0 0 (-10) 30 0,
  p 0 0 0 0 0 0 0 0 0 0 (-4) 12 0,
  p 0 0 0 0 0 0 0 0 0 0 (-10) 30 0,
  p 3 0 0 (-1) 0 2 0 0 0 0 0 (-32) 0,
  p 3 0 0 (-1) 0 2 0 0 0 0 20 0 0,
  p 0 0 0 0 0 0 0 0 0 0 32 0 0,
  p 0 0 0 0 0 0 0 0 0 0 0 (-30) 0,
  p 0 0 0 0 0 0 0 0 0 0 (-32) 0 0,
  p 0 0 0 0 0 0 0 0 0 0 32 0 0,
  p 0 0 0 0 0 0 0 0 0 0 0 30 0,
  p 0 0 0 0 0 0 0 0 0 0 (-36) 0 0,
  p 0 0 0 0 0 0 0 0 0 0 (-36) 0 0,
  p 0 0 0 0 0 0 0 0 0 0 (-36) 0 0,
  p 0 0 0 0 0 0 0 0 0 0 36 0 0,
  p 0 0 0 0 0 0 0 0 0 0 0 (-30) 0,
  p 0 0 0 0 0 0 0 0 0 0 (-36) 0 0,
  p 0 0 0 0 0 0 0 0 0 0 0 (-30) 0,
  p 0 0 0 0 0 0 0 0 0 0 (-40) 0 0,
  p 0 0 0 0 0 0 0 0 0 0 0 40 0,
  p 0 0 0 0 0 0 0 0 0 0 40 0 0,
  p 0 0 0 0 0 0 0 0 0 0 0 40 0,
  p 0 0 0 0 0 0 0 0 0 0 (-40) 0 0,
  p 0 0 0 0 0 0 0 0 0 0 0 40 0,
  p 0 0 0 0 0 0 0 0 0 0 40 0 0,
  p 0 0 0 0 0 0 0 0 0 0 0 (-40) 0,
  p 0 0 0 0 0 0 0 0 0 0 40 0 0,
  p 0 0 0 0 0 0 0 0 0 0 40 0 0,
  p 0 0 0 0 0 0 0 0 0 0 36 0 0,
  p 0 0 0 0 0 0 0 0 0 0 0 (-40) 0,
  p 0 0 0 0 0 0 0 0 0 0 (-36) 0 0,
  p 0 0 0 0 0 0 0 0 0 0 0 40 0,
  p 0 0 0 0 0 0 0 0 0 0 36 0 0,
  p 0 0 0 0 0 0 0 0 0 0 0 40 0,
  p 0 0 0 0 0 0 0 0 0 0 (-36) 0 0,
  p 0 0 0 0 0 0 0 0 0 0 0 (-40) 0,
  p 0 0 0 0 0 0 0 0 0 0 36 0 0,
  p 0 0 0 0 0 0 0 0 0 0 0 (-40) 0,
  p 0 0 0 0 0 0 0 0 0 0 36 0 0,
  p 0 0 0 0 0 0 0 0 0 0 0 40 0,
  p 0 0 0 0 0 0 0 0 0 0 (-32) 0 0,
  p 0 0 0 0 0 0 0 0 0 0 0 (-40) 0,
  p 0 0 0 0 0 0 0 0 0 0 32 0 0,
  p 0 0 0 0 0 0 0 0 0 0 0 40 0,
  p 0 0 0 0 0 0 0 0 0 0 32 0 0,
  p 0 0 0 0 0 0 0 0 0 0 0 (-40) 0,
  p 0 0 0 0 0 0 0 0 0 0 (-32) 0 0,
  p 0 0 0 0 0 0 0 0 0 0 0 40 0,
  p 0 0 0 0 0 0 0 0 0 0 (-32) 0 0,
  p 0 0 0 0 0 0 0 0 0 0 0 40 0,
  p 0 0 0 0 0 0 0 0 0 0 32 0 0,
  p 0 0 0 0 0 0 0 0 0 0 0 (-40) 0,
  p 0 0 0 0 0 0 0 0 0 0 (-32) 0 0,
  p 0 0 0 0 0 0 0 0 0 0 0 40 0,
  p 0 0 0 0 0 0 0 0 0 0 28 0 0,
  p 0 0 0 0 0 0 0 0 0 0 0 40 0,
  p 0 0 0 0 0 0 0 0 0 0 28 0 0,
  p 0 0 0 0 0 0 0 0 0 0 0 (-40) 0,
  p 0 0 0 0 0 0 0 0 0 0 28 0 0,
  p 0 0 0 0 0 0 0 0 0 0 0 (-40) 0,
  p 0 0 0 0 0 0 0 0 0 0 (-28) 0 0,
  p 0 0 0 0 0 0 0 0 0 0 0 40 0,
  p 0 0 0 0 0 0 0 0 0 0 0 20 0,
  p 0 0 0 0 0 0 0 0 0 0 40 0 0,
  p 0 0 0 0 0 0 0 0 0 0 (-44) 0 0,
  p 0 0 0 0 0 0 0 0 0 0 (-44) 0 0,
  p 0 0 0 0 0 0 0 0 0 0 (-44) 0 0,
  p 0 0 0 0 0 0 0 0 0 0 (-44) 0 0,
  p 0 0 0 0 0 0 0 0 0 0 (-44) 0 0,
  p 0 0 0 0 0 0 0 0 0 0 44 0 0,
  p 1 0 0 (-1) 0 0 0 0 0 0 0 (-20) 0,
  p 3 0 0 (-1) 0 2 0 0 0 0 0 (-24) 0,
  p 10 0 0 3 (-7) 0 0 0 0 0 20 (-16) 0,
  p 4 0 0 (-1) 0 3 0 0 0 0 12 28 0,
  p 3 0 0 (-1) 0 2 0 0 0 0 30 0 0,
  p 1 0 0 (-1) 0 0 0 0 0 0 30 0 0,
  p 10 0 0 3 (-7) 0 0 0 0 0 20 30 0,
  p 4 0 0 (-1) 0 3 0 0 0 0 (-40) 20 0,
  p 0 0 0 0 0 0 0 0 0 0 48 0 0,
  p 0 0 0 0 0 0 0 0 0 0 48 0 0,
  p 0 0 0 0 0 0 0 0 0 0 (-48) 0 0,
  p 0 0 0 0 0 0 0 0 0 0 48 0 0,
  p 0 0 0 0 0 0 0 0 0 0 0 (-50) 0,
  p 0 0 0 0 0 0 0 0 0 0 (-48) 0 0,
  p 0 0 0 0 0 0 0 0 0 0 0 50 0,
  p 0 0 0 0 0 0 0 0 0 0 (-48) 0 0,
  p 0 0 0 0 0 0 0 0 0 0 0 (-50) 0,
  p 0 0 0 0 0 0 0 0 0 0 48 0 0,
  p 0 0 0 0 0 0 0 0 0 0 0 (-50) 0,
  p 0 0 0 0 0 0 0 0 0 0 (-48) 0 0,
  p 0 0 0 0 0 0 0 0 0 0 0 50 0,
  p 0 0 0 0 0 0 0 0 0 0 (-48) 0 0,
  p 0 0 0 0 0 0 0 0 0 0 0 50 0,
  p 0 0 0 0 0 0 0 0 0 0 44 0 0,
  p 0 0 0 0 0 0 0 0 0 0 0 50 0,
  p 0 0 0 0 0 0 0 0 0 0 40 0 0,
  p 0 0 0 0 0 0 0 0 0 0 0 50 0,
  p 0 0 0 0 0 0 0 0 0 0 (-40) 0 0,
  p 0 0 0 0 0 0 0 0 0 0 0 50 0,
  p 0 0 0 0 0 0 0 0 0 0 40 0 0,
  p 0 0 0 0 0 0 0 0 0 0 0 50 0,
  p 0 0 0 0 0 0 0 0 0 0 0 (-40) 0,
  p 0 0 0 0 0 0 0 0 0 0 (-50) 0 0,
  p 0 0 0 0 0 0 0 0 0 0 36 0 0,
  p 0 0 0 0 0 0 0 0 0 0 0 (-50) 0]

private def xyPln_2 : List Pln := [
  p 0 0 0 0 0 0 0 0 0 0 (-36) 0 0,
  p 0 0 0 0 0 0 0 0 0 0 0 (-50) 0,
  p 12 0 (-5) 7 0 0 0 0 0 0 12 0 0,
  p 2 0 0 (-1) 0 (-1) 0 0 0 0 0 (-16) 0,
  p 2 0 0 0 (-2) 0 0 0 0 0 (-32) (-12) 0,
  p 2 0 0 (-1) 0 (-1) 0 0 0 0 20 10 0,
  p 2 0 0 0 (-2) 0 0 0 0 0 10 (-50) 0,
  p 0 0 0 0 0 0 0 0 0 0 (-51) 0 0,
  p 0 0 0 0 0 0 0 0 0 0 0 (-50) 0,
  p 0 0 0 0 0 0 0 0 0 0 52 0 0,
  p 0 0 0 0 0 0 0 0 0 0 (-52) 0 0,
  p 0 0 0 0 0 0 0 0 0 0 0 50 0,
  p 0 0 0 0 0 0 0 0 0 0 52 0 0,
  p 0 0 0 0 0 0 0 0 0 0 (-52) 0 0,
  p 0 0 0 0 0 0 0 0 0 0 52 0 0,
  p 0 0 0 0 0 0 0 0 0 0 0 (-50) 0,
  p 0 0 0 0 0 0 0 0 0 0 (-56) 0 0,
  p 0 0 0 0 0 0 0 0 0 0 (-56) 0 0,
  p 0 0 0 0 0 0 0 0 0 0 (-60) 0 0,
  p 0 0 0 0 0 0 0 0 0 0 60 0 0,
  p 0 0 0 0 0 0 0 0 0 0 55 0 0,
  p 0 0 0 0 0 0 0 0 0 0 0 (-60) 0,
  p 0 0 0 0 0 0 0 0 0 0 52 0 0,
  p 0 0 0 0 0 0 0 0 0 0 0 60 0,
  p 0 0 0 0 0 0 0 0 0 0 (-52) 0 0,
  p 0 0 0 0 0 0 0 0 0 0 0 60 0,
  p 0 0 0 0 0 0 0 0 0 0 52 0 0,
  p 0 0 0 0 0 0 0 0 0 0 0 (-60) 0,
  p 0 0 0 0 0 0 0 0 0 0 48 0 0,
  p 0 0 0 0 0 0 0 0 0 0 0 60 0,
  p 0 0 0 0 0 0 0 0 0 0 (-48) 0 0,
  p 0 0 0 0 0 0 0 0 0 0 0 60 0,
  p 0 0 0 0 0 0 0 0 0 0 48 0 0,
  p 0 0 0 0 0 0 0 0 0 0 0 60 0,
  p 0 0 0 0 0 0 0 0 0 0 44 0 0,
  p 0 0 0 0 0 0 0 0 0 0 0 (-60) 0,
  p 0 0 0 0 0 0 0 0 0 0 (-40) 0 0,
  p 0 0 0 0 0 0 0 0 0 0 0 (-60) 0,
  p 0 0 0 0 0 0 0 0 0 0 40 0 0,
  p 0 0 0 0 0 0 0 0 0 0 0 (-60) 0,
  p 0 0 0 0 0 0 0 0 0 0 40 0 0,
  p 0 0 0 0 0 0 0 0 0 0 0 60 0,
  p 0 0 0 0 0 0 0 0 0 0 (-63) 0 0,
  p 0 0 0 0 0 0 0 0 0 0 0 (-60) 0,
  p 0 0 0 0 0 0 0 0 0 0 (-64) 0 0,
  p 0 0 0 0 0 0 0 0 0 0 0 (-10) 0,
  p 0 0 0 0 0 0 0 0 0 0 (-64) 0 0,
  p 0 0 0 0 0 0 0 0 0 0 0 (-10) 0,
  p 0 0 0 0 0 0 0 0 0 0 (-68) 0 0,
  p 0 0 0 0 0 0 0 0 0 0 (-68) 0 0,
  p 0 0 0 0 0 0 0 0 0 0 68 0 0,
  p 0 0 0 0 0 0 0 0 0 0 0 70 0,
  p 0 0 0 0 0 0 0 0 0 0 68 0 0,
  p 0 0 0 0 0 0 0 0 0 0 0 (-70) 0,
  p 0 0 0 0 0 0 0 0 0 0 (-64) 0 0,
  p 0 0 0 0 0 0 0 0 0 0 0 70 0,
  p 0 0 0 0 0 0 0 0 0 0 64 0 0,
  p 0 0 0 0 0 0 0 0 0 0 0 70 0,
  p 0 0 0 0 0 0 0 0 0 0 (-60) 0 0,
  p 0 0 0 0 0 0 0 0 0 0 0 (-70) 0,
  p 0 0 0 0 0 0 0 0 0 0 (-60) 0 0,
  p 0 0 0 0 0 0 0 0 0 0 0 70 0,
  p 0 0 0 0 0 0 0 0 0 0 (-56) 0 0,
  p 0 0 0 0 0 0 0 0 0 0 0 70 0,
  p 0 0 0 0 0 0 0 0 0 0 (-71) 0 0,
  p 0 0 0 0 0 0 0 0 0 0 0 70 0,
  p 0 0 0 0 0 0 0 0 0 0 72 0 0,
  p 0 0 0 0 0 0 0 0 0 0 (-72) 0 0,
  p 0 0 0 0 0 0 0 0 0 0 (-76) 0 0,
  p 0 0 0 0 0 0 0 0 0 0 (-51) 0 0,
  p 0 0 0 0 0 0 0 0 0 0 0 76 0,
  p 0 0 0 0 0 0 0 0 0 0 40 52 0,
  p 0 0 0 0 0 0 0 0 0 0 (-50) 60 0,
  p 0 0 0 0 0 0 0 0 0 0 80 0 0,
  p 0 0 0 0 0 0 0 0 0 0 (-80) 0 0,
  p 0 0 0 0 0 0 0 0 0 0 (-80) 0 0,
  p 0 0 0 0 0 0 0 0 0 0 79 0 0,
  p 0 0 0 0 0 0 0 0 0 0 0 80 0,
  p 0 0 0 0 0 0 0 0 0 0 (-76) 0 0,
  p 0 0 0 0 0 0 0 0 0 0 0 (-80) 0,
  p 0 0 0 0 0 0 0 0 0 0 (-72) 0 0,
  p 0 0 0 0 0 0 0 0 0 0 0 (-80) 0,
  p 0 0 0 0 0 0 0 0 0 0 64 0 0,
  p 0 0 0 0 0 0 0 0 0 0 0 80 0,
  p 0 0 0 0 0 0 0 0 0 0 (-64) 0 0,
  p 0 0 0 0 0 0 0 0 0 0 0 (-80) 0,
  p 0 0 0 0 0 0 0 0 0 0 64 0 0,
  p 0 0 0 0 0 0 0 0 0 0 0 80 0,
  p 0 0 0 0 0 0 0 0 0 0 (-60) 0 0,
  p 0 0 0 0 0 0 0 0 0 0 0 (-80) 0,
  p 0 0 0 0 0 0 0 0 0 0 56 0 0,
  p 0 0 0 0 0 0 0 0 0 0 0 80 0,
  p 0 0 0 0 0 0 0 0 0 0 (-56) 0 0,
  p 0 0 0 0 0 0 0 0 0 0 0 80 0,
  p 0 0 0 0 0 0 0 0 0 0 88 0 0,
  p 0 0 0 0 0 0 0 0 0 0 88 0 0,
  p 0 0 0 0 0 0 0 0 0 0 88 0 0,
  p 0 0 0 0 0 0 0 0 0 0 0 (-90) 0,
  p 0 0 0 0 0 0 0 0 0 0 84 0 0,
  p 0 0 0 0 0 0 0 0 0 0 0 90 0,
  p 0 0 0 0 0 0 0 0 0 0 84 0 0,
  p 0 0 0 0 0 0 0 0 0 0 0 (-90) 0,
  p 0 0 0 0 0 0 0 0 0 0 76 0 0,
  p 0 0 0 0 0 0 0 0 0 0 0 90 0,
  p 0 0 0 0 0 0 0 0 0 0 72 0 0,
  p 0 0 0 0 0 0 0 0 0 0 0 (-90) 0,
  p 0 0 0 0 0 0 0 0 0 0 (-68) 0 0,
  p 0 0 0 0 0 0 0 0 0 0 0 90 0,
  p 0 0 0 0 0 0 0 0 0 0 68 0 0,
  p 0 0 0 0 0 0 0 0 0 0 0 90 0,
  p 0 0 0 0 0 0 0 0 0 0 91 0 0,
  p 0 0 0 0 0 0 0 0 0 0 0 90 0,
  p 0 0 0 0 0 0 0 0 0 0 (-91) 0 0,
  p 0 0 0 0 0 0 0 0 0 0 0 90 0,
  p 0 0 0 0 0 0 0 0 0 0 (-91) 0 0,
  p 0 0 0 0 0 0 0 0 0 0 0 (-10) 0,
  p 0 0 0 0 0 0 0 0 0 0 (-91) 0 0,
  p 0 0 0 0 0 0 0 0 0 0 (-95) 0 0,
  p 0 0 0 0 0 0 0 0 0 0 (-99) 0 0,
  p 0 0 0 0 0 0 0 0 0 0 99 0 0,
  p 0 0 0 0 0 0 0 0 0 0 (-95) 0 0,
  p 0 0 0 0 0 0 0 0 0 0 0 100 0,
  p 0 0 0 0 0 0 0 0 0 0 95 0 0,
  p 0 0 0 0 0 0 0 0 0 0 0 (-100) 0,
  p 0 0 0 0 0 0 0 0 0 0 91 0 0,
  p 0 0 0 0 0 0 0 0 0 0 0 (-100) 0,
  p 0 0 0 0 0 0 0 0 0 0 88 0 0,
  p 0 0 0 0 0 0 0 0 0 0 0 100 0,
  p 0 0 0 0 0 0 0 0 0 0 (-83) 0 0,
  p 0 0 0 0 0 0 0 0 0 0 0 100 0,
  p 0 0 0 0 0 0 0 0 0 0 (-76) 0 0,
  p 0 0 0 0 0 0 0 0 0 0 0 100 0,
  p 0 0 0 0 0 0 0 0 0 0 (-76) 0 0,
  p 0 0 0 0 0 0 0 0 0 0 0 (-100) 0,
  p 0 0 0 0 0 0 0 0 0 0 76 0 0,
  p 0 0 0 0 0 0 0 0 0 0 0 100 0,
  p 0 0 0 0 0 0 0 0 0 0 (-72) 0 0,
  p 0 0 0 0 0 0 0 0 0 0 0 100 0,
  p 0 0 0 0 0 0 0 0 0 0 (-68) 0 0,
  p 0 0 0 0 0 0 0 0 0 0 0 100 0,
  p 0 0 0 0 0 0 0 0 0 0 0 (-48) 0,
  p 0 0 0 0 0 0 0 0 0 0 (-100) 0 0,
  p 0 0 0 0 0 0 0 0 0 0 (-107) 0 0,
  p 0 0 0 0 0 0 0 0 0 0 0 (-10) 0,
  p 4 0 0 (-1) 0 3 0 0 0 0 0 12 0,
  p 10 0 0 3 (-7) 0 0 0 0 0 103 (-36) 0,
  p 0 0 0 0 0 0 0 0 0 0 107 0 0,
  p 0 0 0 0 0 0 0 0 0 0 0 110 0,
  p 0 0 0 0 0 0 0 0 0 0 0 (-103) 0,
  p 0 0 0 0 0 0 0 0 0 0 (-110) 0 0,
  p 0 0 0 0 0 0 0 0 0 0 103 0 0,
  p 0 0 0 0 0 0 0 0 0 0 0 (-110) 0,
  p 0 0 0 0 0 0 0 0 0 0 (-103) 0 0,
  p 0 0 0 0 0 0 0 0 0 0 0 110 0,
  p 0 0 0 0 0 0 0 0 0 0 (-95) 0 0,
  p 0 0 0 0 0 0 0 0 0 0 0 110 0,
  p 0 0 0 0 0 0 0 0 0 0 (-95) 0 0,
  p 0 0 0 0 0 0 0 0 0 0 0 (-110) 0,
  p 0 0 0 0 0 0 0 0 0 0 (-80) 0 0,
  p 0 0 0 0 0 0 0 0 0 0 0 110 0,
  p 0 0 0 0 0 0 0 0 0 0 0 (-52) 0,
  p 0 0 0 0 0 0 0 0 0 0 (-110) 0 0,
  p 0 0 0 0 0 0 0 0 0 0 (-111) 0 0,
  p 0 0 0 0 0 0 0 0 0 0 20 0 0,
  p 0 0 0 0 0 0 0 0 0 0 (-111) 0 0,
  p 0 0 0 0 0 0 0 0 0 0 0 (-10) 0,
  p 0 0 0 0 0 0 0 0 0 0 115 0 0,
  p 0 0 0 0 0 0 0 0 0 0 0 (-10) 0,
  p 0 0 0 0 0 0 0 0 0 0 (-115) 0 0,
  p 0 0 0 0 0 0 0 0 0 0 115 0 0,
  p 0 0 0 0 0 0 0 0 0 0 0 (-10) 0,
  p 0 0 0 0 0 0 0 0 0 0 (-115) 0 0,
  p 0 0 0 0 0 0 0 0 0 0 (-103) 0 0,
  p 0 0 0 0 0 0 0 0 0 0 0 115 0,
  p 0 0 0 0 0 0 0 0 0 0 119 0 0,
  p 0 0 0 0 0 0 0 0 0 0 119 0 0,
  p 0 0 0 0 0 0 0 0 0 0 0 (-20) 0,
  p 0 0 0 0 0 0 0 0 0 0 (-107) 0 0,
  p 0 0 0 0 0 0 0 0 0 0 0 120 0,
  p 0 0 0 0 0 0 0 0 0 0 91 0 0,
  p 0 0 0 0 0 0 0 0 0 0 0 (-120) 0,
  p 0 0 0 0 0 0 0 0 0 0 (-88) 0 0,
  p 0 0 0 0 0 0 0 0 0 0 0 120 0,
  p 0 0 0 0 0 0 0 0 0 0 (-88) 0 0,
  p 0 0 0 0 0 0 0 0 0 0 0 (-120) 0,
  p 2 0 0 (-1) 0 0 (-1) 0 0 0 (-12) 0 0,
  p 7 0 (-3) 4 0 0 0 0 0 0 0 (-12) 0,
  p 20 0 (-8) 12 0 0 0 0 0 0 (-15) 0 0,
  p 12 0 (-5) 7 0 0 0 0 0 0 (-20) 0 0,
  p 2 0 0 (-1) 0 0 1 0 0 0 (-20) 0 0,
  p 2 0 0 (-1) 0 (-1) 0 0 0 0 0 (-24) 0,
  p 2 0 0 (-1) 0 1 0 0 0 0 0 24 0,
  p 8 0 0 (-1) 0 (-2) 5 0 0 0 (-13) 22 0,
  p 2 0 0 0 (-2) 0 0 0 0 0 (-28) 0 0,
  p 3 0 0 (-1) 0 2 0 0 0 0 0 40 0,
  p 4 0 0 (-2) 2 0 0 0 0 0 0 60 0,
  p 3 0 0 (-1) 0 0 2 0 0 0 44 95 0,
  p 20 0 (-8) 12 0 0 0 0 0 0 0 20 0,
  p 2 0 0 (-1) 0 (-1) 0 0 0 0 (-20) 0 0,
  p 12 0 (-5) 7 0 0 0 0 0 0 0 20 0]

private def xyPln_3 : List Pln := [
  p 2 0 0 (-1) 0 0 1 0 0 0 0 20 0,
  p 8 0 0 (-1) 0 (-2) 5 0 0 0 21 10 0,
  p 2 0 0 0 (-2) 0 0 0 0 0 0 30 0,
  p 2 0 0 (-1) 0 1 0 0 0 0 30 0 0,
  p 3 0 0 (-1) 0 2 0 0 0 0 40 0 0,
  p 4 0 0 (-2) 2 0 0 0 0 0 70 0 0,
  p 3 0 0 (-1) 0 0 2 0 0 0 110 (-50) 0,
  p 0 0 0 0 0 0 0 0 0 0 123 0 0,
  p 0 0 0 0 0 0 0 0 0 0 122 0 0,
  p 0 0 0 0 0 0 0 0 0 0 0 (-129) 0,
  p 0 0 0 0 0 0 0 0 0 0 127 0 0,
  p 0 0 0 0 0 0 0 0 0 0 0 (-130) 0,
  p 0 0 0 0 0 0 0 0 0 0 (-127) 0 0,
  p 0 0 0 0 0 0 0 0 0 0 0 (-130) 0,
  p 0 0 0 0 0 0 0 0 0 0 (-123) 0 0,
  p 0 0 0 0 0 0 0 0 0 0 0 (-130) 0,
  p 0 0 0 0 0 0 0 0 0 0 (-123) 0 0,
  p 0 0 0 0 0 0 0 0 0 0 0 130 0,
  p 0 0 0 0 0 0 0 0 0 0 (-135) 0 0,
  p 0 0 0 0 0 0 0 0 0 0 (-139) 0 0,
  p 0 0 0 0 0 0 0 0 0 0 (-139) 0 0,
  p 0 0 0 0 0 0 0 0 0 0 0 (-140) 0,
  p 0 0 0 0 0 0 0 0 0 0 127 0 0,
  p 0 0 0 0 0 0 0 0 0 0 0 140 0,
  p 0 0 0 0 0 0 0 0 0 0 0 119 0,
  p 0 0 0 0 0 0 0 0 0 0 140 0 0,
  p 0 0 0 0 0 0 0 0 0 0 (-115) 0 0,
  p 0 0 0 0 0 0 0 0 0 0 0 140 0,
  p 0 0 0 0 0 0 0 0 0 0 107 0 0,
  p 0 0 0 0 0 0 0 0 0 0 0 (-140) 0,
  p 0 0 0 0 0 0 0 0 0 0 (-103) 0 0,
  p 0 0 0 0 0 0 0 0 0 0 0 (-140) 0,
  p 0 0 0 0 0 0 0 0 0 0 143 0 0,
  p 0 0 0 0 0 0 0 0 0 0 (-127) 0 0,
  p 0 0 0 0 0 0 0 0 0 0 0 149 0,
  p 0 0 0 0 0 0 0 0 0 0 143 0 0,
  p 0 0 0 0 0 0 0 0 0 0 0 (-150) 0,
  p 0 0 0 0 0 0 0 0 0 0 135 0 0,
  p 0 0 0 0 0 0 0 0 0 0 0 150 0,
  p 0 0 0 0 0 0 0 0 0 0 119 0 0,
  p 0 0 0 0 0 0 0 0 0 0 0 150 0,
  p 0 0 0 0 0 0 0 0 0 0 115 0 0,
  p 0 0 0 0 0 0 0 0 0 0 0 150 0,
  p 0 0 0 0 0 0 0 0 0 0 (-112) 0 0,
  p 0 0 0 0 0 0 0 0 0 0 0 (-150) 0,
  p 0 0 0 0 0 0 0 0 0 0 (-111) 0 0,
  p 0 0 0 0 0 0 0 0 0 0 0 (-150) 0,
  p 0 0 0 0 0 0 0 0 0 0 (-111) 0 0,
  p 0 0 0 0 0 0 0 0 0 0 0 (-150) 0,
  p 0 0 0 0 0 0 0 0 0 0 151 0 0,
  p 1 0 0 1 0 0 0 0 0 0 (-12) 111 0,
  p 1 0 0 1 0 0 0 0 0 0 150 20 0,
  p 0 0 0 0 0 0 0 0 0 0 147 0 0,
  p 0 0 0 0 0 0 0 0 0 0 0 (-160) 0,
  p 0 0 0 0 0 0 0 0 0 0 147 0 0,
  p 0 0 0 0 0 0 0 0 0 0 0 (-160) 0,
  p 0 0 0 0 0 0 0 0 0 0 (-131) 0 0,
  p 0 0 0 0 0 0 0 0 0 0 0 160 0,
  p 0 0 0 0 0 0 0 0 0 0 127 0 0,
  p 0 0 0 0 0 0 0 0 0 0 0 (-160) 0,
  p 0 0 0 0 0 0 0 0 0 0 (-127) 0 0,
  p 0 0 0 0 0 0 0 0 0 0 0 160 0,
  p 0 0 0 0 0 0 0 0 0 0 127 0 0,
  p 0 0 0 0 0 0 0 0 0 0 0 (-160) 0,
  p 0 0 0 0 0 0 0 0 0 0 175 0 0,
  p 0 0 0 0 0 0 0 0 0 0 0 (-20) 0,
  p 0 0 0 0 0 0 0 0 0 0 171 0 0,
  p 0 0 0 0 0 0 0 0 0 0 0 180 0,
  p 0 0 0 0 0 0 0 0 0 0 139 0 0,
  p 0 0 0 0 0 0 0 0 0 0 0 (-180) 0,
  p 0 0 0 0 0 0 0 0 0 0 (-183) 0 0,
  p 0 0 0 0 0 0 0 0 0 0 0 (-180) 0,
  p 0 0 0 0 0 0 0 0 0 0 187 0 0,
  p 0 0 0 0 0 0 0 0 0 0 187 0 0,
  p 0 0 0 0 0 0 0 0 0 0 0 (-10) 0,
  p 0 0 0 0 0 0 0 0 0 0 187 0 0,
  p 0 0 0 0 0 0 0 0 0 0 0 (-190) 0,
  p 0 0 0 0 0 0 0 0 0 0 (-175) 0 0,
  p 0 0 0 0 0 0 0 0 0 0 0 190 0,
  p 0 0 0 0 0 0 0 0 0 0 (-175) 0 0,
  p 0 0 0 0 0 0 0 0 0 0 0 (-190) 0,
  p 0 0 0 0 0 0 0 0 0 0 (-151) 0 0,
  p 0 0 0 0 0 0 0 0 0 0 0 190 0,
  p 0 0 0 0 0 0 0 0 0 0 (-147) 0 0,
  p 0 0 0 0 0 0 0 0 0 0 0 190 0,
  p 0 0 0 0 0 0 0 0 0 0 139 0 0,
  p 0 0 0 0 0 0 0 0 0 0 0 190 0,
  p 0 0 0 0 0 0 0 0 0 0 195 0 0,
  p 0 0 0 0 0 0 0 0 0 0 0 (-20) 0,
  p 0 0 0 0 0 0 0 0 0 0 179 0 0,
  p 0 0 0 0 0 0 0 0 0 0 0 (-200) 0,
  p 0 0 0 0 0 0 0 0 0 0 (-151) 0 0,
  p 0 0 0 0 0 0 0 0 0 0 0 (-200) 0,
  p 0 0 0 0 0 0 0 0 0 0 151 0 0,
  p 0 0 0 0 0 0 0 0 0 0 0 200 0,
  p 0 0 0 0 0 0 0 0 0 0 (-143) 0 0,
  p 0 0 0 0 0 0 0 0 0 0 0 200 0,
  p 0 0 0 0 0 0 0 0 0 0 143 0 0,
  p 0 0 0 0 0 0 0 0 0 0 0 200 0,
  p 0 0 0 0 0 0 0 0 0 0 203 0 0,
  p 0 0 0 0 0 0 0 0 0 0 163 0 0,
  p 0 0 0 0 0 0 0 0 0 0 0 (-210) 0,
  p 0 0 0 0 0 0 0 0 0 0 (-159) 0 0,
  p 0 0 0 0 0 0 0 0 0 0 0 210 0,
  p 0 0 0 0 0 0 0 0 0 0 155 0 0,
  p 0 0 0 0 0 0 0 0 0 0 0 (-210) 0,
  p 0 0 0 0 0 0 0 0 0 0 (-155) 0 0,
  p 0 0 0 0 0 0 0 0 0 0 0 210 0,
  p 0 0 0 0 0 0 0 0 0 0 131 0 0,
  p 0 0 0 0 0 0 0 0 0 0 0 210 0,
  p 0 0 0 0 0 0 0 0 0 0 (-211) 0 0,
  p 0 0 0 0 0 0 0 0 0 0 0 220 0,
  p 0 0 0 0 0 0 0 0 0 0 (-203) 0 0,
  p 0 0 0 0 0 0 0 0 0 0 0 220 0,
  p 0 0 0 0 0 0 0 0 0 0 203 0 0,
  p 0 0 0 0 0 0 0 0 0 0 0 (-220) 0,
  p 0 0 0 0 0 0 0 0 0 0 (-179) 0 0,
  p 0 0 0 0 0 0 0 0 0 0 0 220 0,
  p 0 0 0 0 0 0 0 0 0 0 (-167) 0 0,
  p 0 0 0 0 0 0 0 0 0 0 0 220 0,
  p 0 0 0 0 0 0 0 0 0 0 211 0 0,
  p 0 0 0 0 0 0 0 0 0 0 0 (-230) 0,
  p 0 0 0 0 0 0 0 0 0 0 (-179) 0 0,
  p 0 0 0 0 0 0 0 0 0 0 0 230 0,
  p 0 0 0 0 0 0 0 0 0 0 (-239) 0 0,
  p 0 0 0 0 0 0 0 0 0 0 239 0 0,
  p 0 0 0 0 0 0 0 0 0 0 0 20 0,
  p 0 0 0 0 0 0 0 0 0 0 (-187) 0 0,
  p 0 0 0 0 0 0 0 0 0 0 0 (-240) 0,
  p 0 0 0 0 0 0 0 0 0 0 (-171) 0 0,
  p 0 0 0 0 0 0 0 0 0 0 0 240 0,
  p 0 0 0 0 0 0 0 0 0 0 167 0 0,
  p 0 0 0 0 0 0 0 0 0 0 0 240 0,
  p 0 0 0 0 0 0 0 0 0 0 (-243) 0 0,
  p 0 0 0 0 0 0 0 0 0 0 (-222) 0 0,
  p 0 0 0 0 0 0 0 0 0 0 0 (-250) 0,
  p 0 0 0 0 0 0 0 0 0 0 191 0 0,
  p 0 0 0 0 0 0 0 0 0 0 0 250 0,
  p 0 0 0 0 0 0 0 0 0 0 (-259) 0 0,
  p 0 0 0 0 0 0 0 0 0 0 0 (-20) 0,
  p 0 0 0 0 0 0 0 0 0 0 (-251) 0 0,
  p 0 0 0 0 0 0 0 0 0 0 0 260 0,
  p 0 0 0 0 0 0 0 0 0 0 195 0 0,
  p 0 0 0 0 0 0 0 0 0 0 0 (-260) 0,
  p 0 0 0 0 0 0 0 0 0 0 (-179) 0 0,
  p 0 0 0 0 0 0 0 0 0 0 0 (-260) 0,
  p 0 0 0 0 0 0 0 0 0 0 0 (-250) 0,
  p 0 0 0 0 0 0 0 0 0 0 270 0 0,
  p 0 0 0 0 0 0 0 0 0 0 (-251) 0 0,
  p 0 0 0 0 0 0 0 0 0 0 0 (-280) 0,
  p 0 0 0 0 0 0 0 0 0 0 227 0 0,
  p 0 0 0 0 0 0 0 0 0 0 0 (-290) 0,
  p 0 0 0 0 0 0 0 0 0 0 294 (-12) 0,
  p 0 0 0 0 0 0 0 0 0 0 10 (-10) 0,
  p 0 0 0 0 0 0 0 0 0 0 0 298 0,
  p 0 0 0 0 0 0 0 0 0 0 298 0 0,
  p 0 0 0 0 0 0 0 0 0 0 (-274) 0 0,
  p 0 0 0 0 0 0 0 0 0 0 0 300 0,
  p 0 0 0 0 0 0 0 0 0 0 74 (-4) 0,
  p 0 0 0 0 0 0 0 0 0 0 8 305 0,
  p 0 0 0 0 0 0 0 0 0 0 280 0 0,
  p 0 0 0 0 0 0 0 0 0 0 0 (-308) 0,
  p 0 0 0 0 0 0 0 0 0 0 294 0 0,
  p 0 0 0 0 0 0 0 0 0 0 0 (-320) 0,
  p 0 0 0 0 0 0 0 0 0 0 (-290) 0 0,
  p 0 0 0 0 0 0 0 0 0 0 0 320 0,
  p 0 0 0 0 0 0 0 0 0 0 322 (-4) 0,
  p 0 0 0 0 0 0 0 0 0 0 0 (-40) 0,
  p 0 0 0 0 0 0 0 0 0 0 246 0 0,
  p 0 0 0 0 0 0 0 0 0 0 0 323 0,
  p 0 0 0 0 0 0 0 0 0 0 326 0 0,
  p 0 0 0 0 0 0 0 0 0 0 0 (-40) 0,
  p 0 0 0 0 0 0 0 0 0 0 255 0 0,
  p 0 0 0 0 0 0 0 0 0 0 0 (-330) 0,
  p 0 0 0 0 0 0 0 0 0 0 251 0 0,
  p 0 0 0 0 0 0 0 0 0 0 0 330 0,
  p 0 0 0 0 0 0 0 0 0 0 (-330) 1 0,
  p 0 0 0 0 0 0 0 0 0 0 0 336 0,
  p 0 0 0 0 0 0 0 0 0 0 338 0 0,
  p 0 0 0 0 0 0 0 0 0 0 314 0 0,
  p 0 0 0 0 0 0 0 0 0 0 0 340 0,
  p 0 0 0 0 0 0 0 0 0 0 247 0 0,
  p 0 0 0 0 0 0 0 0 0 0 0 (-340) 0,
  p 0 0 0 0 0 0 0 0 0 0 (-350) 0 0,
  p 0 0 0 0 0 0 0 0 0 0 0 20 0,
  p 0 0 0 0 0 0 0 0 0 0 (-330) 0 0,
  p 0 0 0 0 0 0 0 0 0 0 0 (-360) 0,
  p 0 0 0 0 0 0 0 0 0 0 (-270) 0 0,
  p 0 0 0 0 0 0 0 0 0 0 0 (-360) 0,
  p 0 0 0 0 0 0 0 0 0 0 (-366) (-20) 0,
  p 0 0 0 0 0 0 0 0 0 0 20 120 0,
  p 0 0 0 0 0 0 0 0 0 0 374 0 0,
  p 0 0 0 0 0 0 0 0 0 0 0 (-40) 0,
  p 0 0 0 0 0 0 0 0 0 0 (-374) 0 0,
  p 0 0 0 0 0 0 0 0 0 0 (-366) 4 0,
  p 0 0 0 0 0 0 0 0 0 0 0 390 0,
  p 0 0 0 0 0 0 0 0 0 0 366 4 0,
  p 0 0 0 0 0 0 0 0 0 0 0 390 0,
  p 0 0 0 0 0 0 0 0 0 0 (-362) 0 0,
  p 0 0 0 0 0 0 0 0 0 0 0 (-390) 0]

private def xyPln_4 : List Pln := [
  p 0 0 0 0 0 0 0 0 0 0 (-361) 0 0,
  p 0 0 0 0 0 0 0 0 0 0 0 390 0,
  p 0 0 0 0 0 0 0 0 0 0 (-306) 0 0,
  p 0 0 0 0 0 0 0 0 0 0 0 390 0,
  p 0 0 0 0 0 0 0 0 0 0 (-374) 0 0,
  p 0 0 0 0 0 0 0 0 0 0 0 (-400) 0,
  p 0 0 0 0 0 0 0 0 0 0 370 0 0,
  p 0 0 0 0 0 0 0 0 0 0 0 400 0,
  p 0 0 0 0 0 0 0 0 0 0 330 40 0,
  p 0 0 0 0 0 0 0 0 0 0 20 400 0,
  p 0 0 0 0 0 0 0 0 0 0 410 0 0,
  p 0 0 0 0 0 0 0 0 0 0 0 20 0,
  p 0 0 0 0 0 0 0 0 0 0 310 0 0,
  p 0 0 0 0 0 0 0 0 0 0 0 410 0,
  p 0 0 0 0 0 0 0 0 0 0 (-410) (-12) 0,
  p 0 0 0 0 0 0 0 0 0 0 (-10) 30 0,
  p 0 0 0 0 0 0 0 0 0 0 334 0 0,
  p 0 0 0 0 0 0 0 0 0 0 0 (-430) 0,
  p 0 0 0 0 0 0 0 0 0 0 330 0 0,
  p 0 0 0 0 0 0 0 0 0 0 0 (-430) 0,
  p 0 0 0 0 0 0 0 0 0 0 306 0 0,
  p 0 0 0 0 0 0 0 0 0 0 0 430 0,
  p 0 0 0 0 0 0 0 0 0 0 0 10 1,
  p 0 0 0 0 0 0 0 0 0 0 (-404) 0 0,
  p 0 0 0 0 0 0 0 0 0 0 0 439 0,
  p 0 0 0 0 0 0 0 0 0 0 0 10 1,
  p 0 0 0 0 0 0 0 0 0 0 414 0 0,
  p 0 0 0 0 0 0 0 0 0 0 0 440 0,
  p 0 0 0 0 0 0 0 0 0 0 0 (-10) 1,
  p 0 0 0 0 0 0 0 0 0 0 (-334) 0 0,
  p 0 0 0 0 0 0 0 0 0 0 0 (-440) 0,
  p 0 0 0 0 0 0 0 0 0 0 0 (-10) 1,
  p 0 0 0 0 0 0 0 0 0 0 326 0 0,
  p 0 0 0 0 0 0 0 0 0 0 0 (-450) 0,
  p 0 0 0 0 0 0 0 0 0 0 0 (-10) 1,
  p 0 0 0 0 0 0 0 0 0 0 (-326) 0 0,
  p 0 0 0 0 0 0 0 0 0 0 0 (-450) 0,
  p 0 0 0 0 0 0 0 0 0 0 (-457) 0 0,
  p 0 0 0 0 0 0 0 0 0 0 10 0 1,
  p 0 0 0 0 0 0 0 0 0 0 0 (-20) 0,
  p 0 0 0 0 0 0 0 0 0 0 0 11 1,
  p 0 0 0 0 0 0 0 0 0 0 331 0 0,
  p 0 0 0 0 0 0 0 0 0 0 0 471 0,
  p 0 0 0 0 0 0 0 0 0 0 0 (-11) 1,
  p 0 0 0 0 0 0 0 0 0 0 345 0 0,
  p 0 0 0 0 0 0 0 0 0 0 0 (-472) 0,
  p 0 0 0 0 0 0 0 0 0 0 0 11 1,
  p 0 0 0 0 0 0 0 0 0 0 438 0 0,
  p 0 0 0 0 0 0 0 0 0 0 0 480 0,
  p 0 0 0 0 0 0 0 0 0 0 0 (-11) 1,
  p 0 0 0 0 0 0 0 0 0 0 449 (-4) 0,
  p 0 0 0 0 0 0 0 0 0 0 (-10) 0 1,
  p 0 0 0 0 0 0 0 0 0 0 0 (-490) 0,
  p 0 0 0 0 0 0 0 0 0 0 0 11 1,
  p 0 0 0 0 0 0 0 0 0 0 (-398) 4 0,
  p 0 0 0 0 0 0 0 0 0 0 0 500 0,
  p 0 0 0 0 0 0 0 0 0 0 0 (-11) 1,
  p 0 0 0 0 0 0 0 0 0 0 (-382) 0 0,
  p 0 0 0 0 0 0 0 0 0 0 0 (-500) 0,
  p 0 0 0 0 0 0 0 0 0 0 0 11 1,
  p 0 0 0 0 0 0 0 0 0 0 (-371) 0 0,
  p 0 0 0 0 0 0 0 0 0 0 0 507 0,
  p 0 0 0 0 0 0 0 0 0 0 0 (-12) 1,
  p 0 0 0 0 0 0 0 0 0 0 (-475) 0 0,
  p 0 0 0 0 0 0 0 0 0 0 11 0 1,
  p 0 0 0 0 0 0 0 0 0 0 0 (-519) 0,
  p 0 0 0 0 0 0 0 0 0 0 0 12 1,
  p 0 0 0 0 0 0 0 0 0 0 (-20) 0 0,
  p 0 0 0 0 0 0 0 0 0 0 0 530 0,
  p 0 0 0 0 0 0 0 0 0 0 0 (-12) 1,
  p 0 0 0 0 0 0 0 0 0 0 402 0 0,
  p 0 0 0 0 0 0 0 0 0 0 0 (-540) 0,
  p 0 0 0 0 0 0 0 0 0 0 1 (-12) 1,
  p 0 0 0 0 0 0 0 0 0 0 (-362) (-16) 0,
  p 0 0 0 0 0 0 0 0 0 0 20 (-540) 0,
  p 0 0 0 0 0 0 0 0 0 0 0 12 1,
  p 0 0 0 0 0 0 0 0 0 0 513 4 0,
  p 0 0 0 0 0 0 0 0 0 0 (-11) 0 1,
  p 0 0 0 0 0 0 0 0 0 0 0 550 0,
  p 0 0 0 0 0 0 0 0 0 0 0 13 1,
  p 0 0 0 0 0 0 0 0 0 0 (-406) 0 0,
  p 0 0 0 0 0 0 0 0 0 0 0 560 0,
  p 0 0 0 0 0 0 0 0 0 0 0 13 1,
  p 0 0 0 0 0 0 0 0 0 0 (-398) (-4) 0,
  p 0 0 0 0 0 0 0 0 0 0 0 560 0,
  p 0 0 0 0 0 0 0 0 0 0 1 13 1,
  p 0 0 0 0 0 0 0 0 0 0 (-533) 4 0,
  p 0 0 0 0 0 0 0 0 0 0 12 0 1,
  p 0 0 0 0 0 0 0 0 0 0 10 560 0,
  p 0 0 0 0 0 0 0 0 0 0 0 13 1,
  p 0 0 0 0 0 0 0 0 0 0 (-453) 0 0,
  p 0 0 0 0 0 0 0 0 0 0 10 0 1,
  p 0 0 0 0 0 0 0 0 0 0 0 570 0,
  p 0 0 0 0 0 0 0 0 0 0 0 13 1,
  p 0 0 0 0 0 0 0 0 0 0 418 0 0,
  p 0 0 0 0 0 0 0 0 0 0 0 570 0,
  p 0 0 0 0 0 0 0 0 0 0 0 13 1,
  p 0 0 0 0 0 0 0 0 0 0 450 0 0,
  p 0 0 0 0 0 0 0 0 0 0 (-10) 0 1,
  p 0 0 0 0 0 0 0 0 0 0 0 590 0,
  p 0 0 0 0 0 0 0 0 0 0 0 13 1,
  p 0 0 0 0 0 0 0 0 0 0 (-481) 4 0,
  p 0 0 0 0 0 0 0 0 0 0 11 0 1,
  p 0 0 0 0 0 0 0 0 0 0 0 600 0,
  p 0 0 0 0 0 0 0 0 0 0 (-601) (-4) 0,
  p 0 0 0 0 0 0 0 0 0 0 13 0 1,
  p 0 0 0 0 0 0 0 0 0 0 0 (-50) 0,
  p 0 0 0 0 0 0 0 0 0 0 0 (-14) 1,
  p 0 0 0 0 0 0 0 0 0 0 573 (-4) 0,
  p 0 0 0 0 0 0 0 0 0 0 (-13) 0 1,
  p 0 0 0 0 0 0 0 0 0 0 0 (-610) 0,
  p 0 0 0 0 0 0 0 0 0 0 0 14 1,
  p 0 0 0 0 0 0 0 0 0 0 (-422) 0 0,
  p 0 0 0 0 0 0 0 0 0 0 0 610 0,
  p 0 0 0 0 0 0 0 0 0 0 (-640) 0 0,
  p 0 0 0 0 0 0 0 0 0 0 14 0 1,
  p 0 0 0 0 0 0 0 0 0 0 0 (-10) 0,
  p 0 0 0 0 0 0 0 0 0 0 0 (-14) 1,
  p 0 0 0 0 0 0 0 0 0 0 (-490) 0 0,
  p 0 0 0 0 0 0 0 0 0 0 11 0 1,
  p 0 0 0 0 0 0 0 0 0 0 0 (-640) 0,
  p 0 0 0 0 0 0 0 0 0 0 2 (-12) 1,
  p 2 0 0 (-1) 0 1 0 0 0 0 16 0 0,
  p 7 0 0 (-3) 4 0 0 0 0 0 16 12 0,
  p 7 0 (-3) 4 0 0 0 0 0 0 0 115 0,
  p 3 0 0 (-1) 0 2 0 0 0 0 (-103) (-115) 0,
  p 0 0 0 0 0 0 0 0 0 0 632 (-111) 0,
  p 0 0 0 0 0 0 0 0 0 0 (-14) 2 1,
  p 2 0 0 (-1) 0 1 0 0 0 0 0 (-20) 0,
  p 7 0 0 (-3) 4 0 0 0 0 0 10 (-20) 0,
  p 7 0 (-3) 4 0 0 0 0 0 0 150 0 0,
  p 3 0 0 (-1) 0 2 0 0 0 0 (-160) 140 0,
  p 0 0 0 0 0 0 0 0 0 0 110 (-539) 0,
  p 0 0 0 0 0 0 0 0 0 0 0 15 1,
  p 0 0 0 0 0 0 0 0 0 0 470 (-4) 0,
  p 0 0 0 0 0 0 0 0 0 0 (-11) 0 1,
  p 0 0 0 0 0 0 0 0 0 0 0 660 0,
  p 0 0 0 0 0 0 0 0 0 0 0 15 1,
  p 0 0 0 0 0 0 0 0 0 0 632 0 0,
  p 0 0 0 0 0 0 0 0 0 0 (-14) 0 1,
  p 0 0 0 0 0 0 0 0 0 0 0 690 0,
  p 0 0 0 0 0 0 0 0 0 0 0 15 1,
  p 0 0 0 0 0 0 0 0 0 0 525 0 0,
  p 0 0 0 0 0 0 0 0 0 0 (-12) 0 1,
  p 0 0 0 0 0 0 0 0 0 0 0 690 0,
  p 0 0 0 0 0 0 0 0 0 0 1 15 1,
  p 0 0 0 0 0 0 0 0 0 0 (-648) 8 0,
  p 0 0 0 0 0 0 0 0 0 0 14 0 1,
  p 0 0 0 0 0 0 0 0 0 0 10 690 0,
  p 0 0 0 0 0 0 0 0 0 0 0 (-16) 1,
  p 0 0 0 0 0 0 0 0 0 0 561 0 0,
  p 0 0 0 0 0 0 0 0 0 0 (-13) 0 1,
  p 0 0 0 0 0 0 0 0 0 0 0 (-720) 0,
  p 0 0 0 0 0 0 0 0 0 0 0 (-17) 1,
  p 6 0 (-3) 3 0 0 0 0 0 0 (-24) 0 0,
  p 0 0 0 0 0 0 0 0 0 0 (-694) 0 0,
  p 0 0 0 0 0 0 0 0 0 0 16 0 1,
  p 6 0 (-3) 3 0 0 0 0 0 0 0 (-30) 0,
  p 0 0 0 0 0 0 0 0 0 0 0 (-749) 0,
  p 0 0 0 0 0 0 0 0 0 0 0 17 1,
  p 0 0 0 0 0 0 0 0 0 0 692 4 0,
  p 0 0 0 0 0 0 0 0 0 0 (-15) 0 1,
  p 0 0 0 0 0 0 0 0 0 0 0 750 0,
  p 0 0 0 0 0 0 0 0 0 0 0 (-17) 1,
  p 0 0 0 0 0 0 0 0 0 0 585 0 0,
  p 0 0 0 0 0 0 0 0 0 0 (-13) 0 1,
  p 0 0 0 0 0 0 0 0 0 0 0 (-750) 0,
  p 0 0 0 0 0 0 0 0 0 0 0 17 1,
  p 0 0 0 0 0 0 0 0 0 0 (-612) 4 0,
  p 0 0 0 0 0 0 0 0 0 0 14 0 1,
  p 0 0 0 0 0 0 0 0 0 0 0 780 0,
  p 0 0 0 0 0 0 0 0 0 0 0 (-18) 1,
  p 0 0 0 0 0 0 0 0 0 0 740 (-4) 0,
  p 0 0 0 0 0 0 0 0 0 0 (-17) 0 1,
  p 0 0 0 0 0 0 0 0 0 0 0 (-790) 0,
  p 0 0 0 0 0 0 0 0 0 0 0 18 1,
  p 0 0 0 0 0 0 0 0 0 0 620 0 0,
  p 0 0 0 0 0 0 0 0 0 0 (-14) 0 1,
  p 0 0 0 0 0 0 0 0 0 0 0 809 0,
  p 0 0 0 0 0 0 0 0 0 0 0 19 1,
  p 0 0 0 0 0 0 0 0 0 0 (-748) 0 0,
  p 0 0 0 0 0 0 0 0 0 0 17 0 1,
  p 0 0 0 0 0 0 0 0 0 0 0 830 0,
  p 0 0 0 0 0 0 0 0 0 0 0 19 1,
  p 0 0 0 0 0 0 0 0 0 0 (-609) (-4) 0,
  p 0 0 0 0 0 0 0 0 0 0 14 0 1,
  p 0 0 0 0 0 0 0 0 0 0 0 840 0,
  p 0 0 0 0 0 0 0 0 0 0 (-847) 0 0,
  p 0 0 0 0 0 0 0 0 0 0 19 0 1,
  p 0 0 0 0 0 0 0 0 0 0 0 (-40) 0,
  p 0 0 0 0 0 0 0 0 0 0 907 0 0,
  p 0 0 0 0 0 0 0 0 0 0 (-20) 0 1,
  p 0 0 0 0 0 0 0 0 0 0 1 21 1,
  p 0 0 0 0 0 0 0 0 0 0 (-764) 8 0,
  p 0 0 0 0 0 0 0 0 0 0 17 0 1,
  p 0 0 0 0 0 0 0 0 0 0 10 940 0,
  p 0 0 0 0 0 0 0 0 0 0 0 21 1,
  p 0 0 0 0 0 0 0 0 0 0 744 0 0,
  p 0 0 0 0 0 0 0 0 0 0 (-17) 0 1,
  p 0 0 0 0 0 0 0 0 0 0 0 960 0]

private def xyPln_5 : List Pln := [
  p 0 0 0 0 0 0 0 0 0 0 0 (-22) 1,
  p 0 0 0 0 0 0 0 0 0 0 (-784) (-4) 0,
  p 0 0 0 0 0 0 0 0 0 0 18 0 1,
  p 0 0 0 0 0 0 0 0 0 0 0 (-1000) 0,
  p 0 0 0 0 0 0 0 0 0 0 0 (-23) 1,
  p 0 0 0 0 0 0 0 0 0 0 791 0 0,
  p 0 0 0 0 0 0 0 0 0 0 (-18) 0 1,
  p 0 0 0 0 0 0 0 0 0 0 0 (-1020) 0,
  p 0 0 0 0 0 0 0 0 0 0 1 23 1,
  p 0 0 0 0 0 0 0 0 0 0 (-975) 4 0,
  p 0 0 0 0 0 0 0 0 0 0 22 0 1,
  p 0 0 0 0 0 0 0 0 0 0 0 1040 0,
  p 0 0 0 0 0 0 0 0 0 0 (-1) (-23) 1,
  p 0 0 0 0 0 0 0 0 0 0 967 (-4) 0,
  p 0 0 0 0 0 0 0 0 0 0 (-22) 0 1,
  p 0 0 0 0 0 0 0 0 0 0 0 (-1040) 0,
  p 0 0 0 0 0 0 0 0 0 0 0 23 1,
  p 0 0 0 0 0 0 0 0 0 0 827 4 0,
  p 0 0 0 0 0 0 0 0 0 0 (-19) 0 1,
  p 0 0 0 0 0 0 0 0 0 0 0 1050 0,
  p 0 0 0 0 0 0 0 0 0 0 (-1) (-24) 1,
  p 0 0 0 0 0 0 0 0 0 0 1002 0 0,
  p 0 0 0 0 0 0 0 0 0 0 (-22) 0 1,
  p 0 0 0 0 0 0 0 0 0 0 0 (-1080) 0,
  p 0 0 0 0 0 0 0 0 0 0 1 24 1,
  p 0 0 0 0 0 0 0 0 0 0 (-1030) 8 0,
  p 0 0 0 0 0 0 0 0 0 0 23 0 1,
  p 0 0 0 0 0 0 0 0 0 0 10 1090 0,
  p 0 0 0 0 0 0 0 0 0 0 1098 0 0,
  p 0 0 0 0 0 0 0 0 0 0 (-25) 0 1,
  p 0 0 0 0 0 0 0 0 0 0 0 20 0,
  p 0 0 0 0 0 0 0 0 0 0 (-1098) 0 0,
  p 0 0 0 0 0 0 0 0 0 0 25 0 1,
  p 0 0 0 0 0 0 0 0 0 0 0 (-20) 0,
  p 4 0 (-2) 2 0 0 0 0 0 0 (-12) 0 0,
  p 1 0 (-1) 0 0 0 0 0 0 0 0 (-12) 0,
  p 1 0 0 1 0 0 0 0 0 0 0 12 0,
  p 3 0 0 (-1) 0 0 (-2) 0 0 0 0 12 0,
  p 7 0 (-3) 4 0 0 0 0 0 0 0 (-16) 0,
  p 2 0 0 (-1) 0 1 0 0 0 0 0 16 0,
  p 2 0 0 (-1) 0 0 1 0 0 0 16 0 0,
  p 4 0 0 (-2) 2 0 0 0 0 0 0 16 0,
  p 9 0 (-4) 5 0 0 0 0 0 0 0 (-16) 0,
  p 9 0 3 (-6) 0 0 0 0 0 0 0 16 0,
  p 0 0 0 0 0 0 0 0 0 0 (-20) 0 0,
  p 3 0 0 (-1) 0 0 2 0 0 0 16 36 0,
  p 20 0 (-8) 12 0 0 0 0 0 0 56 28 0,
  p 3 0 0 (-1) 0 2 0 0 0 0 12 64 0,
  p 8 0 0 (-1) 0 (-2) 5 0 0 0 36 (-64) 0,
  p 3 0 0 (-1) 0 (-1) 1 0 0 0 0 95 0,
  p 12 0 (-5) 7 0 0 0 0 0 0 (-139) (-28) 0,
  p 2 0 0 (-1) 0 0 (-1) 0 0 0 167 80 0,
  p 2 0 0 (-1) 0 (-1) 0 0 0 0 84 (-310) 0,
  p 2 0 0 0 (-2) 0 0 0 0 0 (-1058) (-310) 0,
  p 2 0 0 0 (-2) 0 0 0 0 0 24 7 1,
  p 0 0 0 0 0 0 0 0 0 0 0 (-25) 1,
  p 0 0 0 0 0 0 0 0 0 0 (-828) 4 0,
  p 0 0 0 0 0 0 0 0 0 0 19 0 1,
  p 0 0 0 0 0 0 0 0 0 0 0 (-1120) 0,
  p 0 0 0 0 0 0 0 0 0 0 (-1138) 4 0,
  p 0 0 0 0 0 0 0 0 0 0 25 0 1,
  p 0 0 0 0 0 0 0 0 0 0 0 60 0,
  p 0 0 0 0 0 0 0 0 0 0 0 (-27) 1,
  p 0 0 0 0 0 0 0 0 0 0 (-919) 0 0,
  p 0 0 0 0 0 0 0 0 0 0 21 0 1,
  p 0 0 0 0 0 0 0 0 0 0 0 (-1200) 0,
  p 0 0 0 0 0 0 0 0 0 0 (-1) (-29) 1,
  p 0 0 0 0 0 0 0 0 0 0 975 0 0,
  p 0 0 0 0 0 0 0 0 0 0 (-22) 0 1,
  p 0 0 0 0 0 0 0 0 0 0 0 (-1280) 0,
  p 0 0 0 0 0 0 0 0 0 0 0 29 1,
  p 0 0 0 0 0 0 0 0 0 0 911 0 0,
  p 0 0 0 0 0 0 0 0 0 0 (-20) 0 1,
  p 0 0 0 0 0 0 0 0 0 0 0 1280 0,
  p 0 0 0 0 0 0 0 0 0 0 (-1293) 4 0,
  p 0 0 0 0 0 0 0 0 0 0 29 0 1,
  p 0 0 0 0 0 0 0 0 0 0 0 70 0,
  p 0 0 0 0 0 0 0 0 0 0 (-1) 29 1,
  p 0 0 0 0 0 0 0 0 0 0 1046 8 0,
  p 0 0 0 0 0 0 0 0 0 0 (-23) 0 1,
  p 0 0 0 0 0 0 0 0 0 0 (-10) 1310 0,
  p 0 0 0 0 0 0 0 0 0 0 0 1313 0,
  p 0 0 0 0 0 0 0 0 0 0 0 (-29) 1,
  p 0 0 0 0 0 0 0 0 0 0 1332 (-8) 0,
  p 0 0 0 0 0 0 0 0 0 0 (-30) 0 1,
  p 0 0 0 0 0 0 0 0 0 0 0 (-141) 0,
  p 0 0 0 0 0 0 0 0 0 0 (-1) (-30) 1,
  p 0 0 0 0 0 0 0 0 0 0 1224 4 0,
  p 0 0 0 0 0 0 0 0 0 0 (-27) 0 1,
  p 0 0 0 0 0 0 0 0 0 0 0 (-1338) 0,
  p 0 0 0 0 0 0 0 0 0 0 (-31) 0 1,
  p 0 0 0 0 0 0 0 0 0 0 0 (-644) 0,
  p 0 0 0 0 0 0 0 0 0 0 0 14 1,
  p 0 0 0 0 0 0 0 0 0 0 (-1380) 0 0,
  p 0 0 0 0 0 0 0 0 0 0 (-1) (-31) 1,
  p 0 0 0 0 0 0 0 0 0 0 1007 4 0,
  p 0 0 0 0 0 0 0 0 0 0 (-23) 0 1,
  p 0 0 0 0 0 0 0 0 0 0 0 (-1381) 0,
  p 0 0 0 0 0 0 0 0 0 0 (-1) (-32) 1,
  p 0 0 0 0 0 0 0 0 0 0 1341 (-4) 0,
  p 0 0 0 0 0 0 0 0 0 0 (-30) 0 1,
  p 0 0 0 0 0 0 0 0 0 0 (-10) (-1430) 0,
  p 0 0 0 0 0 0 0 0 0 0 1 32 1,
  p 0 0 0 0 0 0 0 0 0 0 (-1329) 0 0,
  p 0 0 0 0 0 0 0 0 0 0 30 0 1,
  p 0 0 0 0 0 0 0 0 0 0 0 1440 0,
  p 0 0 0 0 0 0 0 0 0 0 (-1) (-32) 1,
  p 0 0 0 0 0 0 0 0 0 0 1114 (-4) 0,
  p 0 0 0 0 0 0 0 0 0 0 (-25) 0 1,
  p 0 0 0 0 0 0 0 0 0 0 0 (-1440) 0,
  p 0 0 0 0 0 0 0 0 0 0 1492 (-4) 0,
  p 0 0 0 0 0 0 0 0 0 0 (-33) 0 1,
  p 0 0 0 0 0 0 0 0 0 0 0 (-80) 0,
  p 0 0 0 0 0 0 0 0 0 0 1 (-34) 1,
  p 0 0 0 0 0 0 0 0 0 0 (-1410) 4 0,
  p 0 0 0 0 0 0 0 0 0 0 32 0 1,
  p 0 0 0 0 0 0 0 0 0 0 0 (-1531) 0,
  p 0 0 0 0 0 0 0 0 0 0 (-1) 36 1,
  p 0 0 0 0 0 0 0 0 0 0 1198 (-4) 0,
  p 0 0 0 0 0 0 0 0 0 0 (-27) 0 1,
  p 0 0 0 0 0 0 0 0 0 0 0 1621 0,
  p 0 0 0 0 0 0 0 0 0 0 1655 (-8) 0,
  p 0 0 0 0 0 0 0 0 0 0 (-37) 0 1,
  p 0 0 0 0 0 0 0 0 0 0 0 (-171) 0,
  p 0 0 0 0 0 0 0 0 0 0 (-1) 38 1,
  p 0 0 0 0 0 0 0 0 0 0 1569 0 0,
  p 0 0 0 0 0 0 0 0 0 0 (-35) 0 1,
  p 0 0 0 0 0 0 0 0 0 0 0 1708 0,
  p 0 0 0 0 0 0 0 0 0 0 1 (-39) 1,
  p 0 0 0 0 0 0 0 0 0 0 (-1278) 4 0,
  p 0 0 0 0 0 0 0 0 0 0 29 0 1,
  p 0 0 0 0 0 0 0 0 0 0 0 (-1741) 0,
  p 0 0 0 0 0 0 0 0 0 0 (-39) (-1) 1,
  p 0 0 0 0 0 0 0 0 0 0 0 1447 0,
  p 0 0 0 0 0 0 0 0 0 0 0 (-32) 1,
  p 0 0 0 0 0 0 0 0 0 0 (-1760) 0 0,
  p 0 0 0 0 0 0 0 0 0 0 (-1) (-39) 1,
  p 0 0 0 0 0 0 0 0 0 0 1639 (-8) 0,
  p 0 0 0 0 0 0 0 0 0 0 (-37) 0 1,
  p 0 0 0 0 0 0 0 0 0 0 (-10) (-1760) 0,
  p 0 0 0 0 0 0 0 0 0 0 1 40 1,
  p 0 0 0 0 0 0 0 0 0 0 (-1742) 0 0,
  p 0 0 0 0 0 0 0 0 0 0 39 0 1,
  p 0 0 0 0 0 0 0 0 0 0 0 1810 0,
  p 0 0 0 0 0 0 0 0 0 0 0 41 1,
  p 0 0 0 0 0 0 0 0 0 0 (-1333) (-4) 0,
  p 0 0 0 0 0 0 0 0 0 0 30 0 1,
  p 0 0 0 0 0 0 0 0 0 0 (-10) 1840 0,
  p 0 0 0 0 0 0 0 0 0 0 (-1) (-41) 1,
  p 0 0 0 0 0 0 0 0 0 0 1432 (-4) 0,
  p 0 0 0 0 0 0 0 0 0 0 (-32) 0 1,
  p 0 0 0 0 0 0 0 0 0 0 (-10) (-1850) 0,
  p 0 0 0 0 0 0 0 0 0 0 1 42 1,
  p 0 0 0 0 0 0 0 0 0 0 (-1437) 0 0,
  p 0 0 0 0 0 0 0 0 0 0 32 0 1,
  p 0 0 0 0 0 0 0 0 0 0 0 1891 0,
  p 0 0 0 0 0 0 0 0 0 0 1961 (-8) 0,
  p 0 0 0 0 0 0 0 0 0 0 (-44) 0 1,
  p 0 0 0 0 0 0 0 0 0 0 0 (-150) 0,
  p 0 0 0 0 0 0 0 0 0 0 1965 (-8) 0,
  p 0 0 0 0 0 0 0 0 0 0 (-44) 0 1,
  p 0 0 0 0 0 0 0 0 0 0 0 (-190) 0,
  p 0 0 0 0 0 0 0 0 0 0 1 (-45) 1,
  p 0 0 0 0 0 0 0 0 0 0 (-1842) 0 0,
  p 0 0 0 0 0 0 0 0 0 0 41 0 1,
  p 0 0 0 0 0 0 0 0 0 0 0 (-2000) 0,
  p 0 0 0 0 0 0 0 0 0 0 1 45 1,
  p 0 0 0 0 0 0 0 0 0 0 (-1864) 0 0,
  p 0 0 0 0 0 0 0 0 0 0 42 0 1,
  p 0 0 0 0 0 0 0 0 0 0 0 2011 0,
  p 0 0 0 0 0 0 0 0 0 0 1 46 1,
  p 0 0 0 0 0 0 0 0 0 0 (-1552) 0 0,
  p 0 0 0 0 0 0 0 0 0 0 35 0 1,
  p 0 0 0 0 0 0 0 0 0 0 0 2051 0,
  p 0 0 0 0 0 0 0 0 0 0 1 46 1,
  p 0 0 0 0 0 0 0 0 0 0 (-1941) 8 0,
  p 0 0 0 0 0 0 0 0 0 0 43 0 1,
  p 0 0 0 0 0 0 0 0 0 0 10 2070 0,
  p 0 0 0 0 0 0 0 0 0 0 1 48 1,
  p 0 0 0 0 0 0 0 0 0 0 (-1675) 4 0,
  p 0 0 0 0 0 0 0 0 0 0 37 0 1,
  p 0 0 0 0 0 0 0 0 0 0 10 2160 0,
  p 0 0 0 0 0 0 0 0 0 0 2247 (-4) 0,
  p 0 0 0 0 0 0 0 0 0 0 (-50) 0 1,
  p 0 0 0 0 0 0 0 0 0 0 0 (-60) 0,
  p 0 0 0 0 0 0 0 0 0 0 (-1) 50 1,
  p 0 0 0 0 0 0 0 0 0 0 1774 8 0,
  p 0 0 0 0 0 0 0 0 0 0 (-40) 0 1,
  p 0 0 0 0 0 0 0 0 0 0 (-10) 2250 0,
  p 0 0 0 0 0 0 0 0 0 0 (-1) (-51) 1,
  p 0 0 0 0 0 0 0 0 0 0 2128 (-8) 0,
  p 0 0 0 0 0 0 0 0 0 0 (-48) 0 1,
  p 0 0 0 0 0 0 0 0 0 0 (-10) (-2280) 0,
  p 0 0 0 0 0 0 0 0 0 0 (-2299) 4 0,
  p 0 0 0 0 0 0 0 0 0 0 51 0 1,
  p 0 0 0 0 0 0 0 0 0 0 0 50 0,
  p 0 0 0 0 0 0 0 0 0 0 2339 (-12) 0,
  p 0 0 0 0 0 0 0 0 0 0 (-52) 0 1,
  p 0 0 0 0 0 0 0 0 0 0 0 (-240) 0,
  p 0 0 0 0 0 0 0 0 0 0 (-1) 54 1]

private def xyPln_6 : List Pln := [
  p 0 0 0 0 0 0 0 0 0 0 1858 4 0,
  p 0 0 0 0 0 0 0 0 0 0 (-42) 0 1,
  p 0 0 0 0 0 0 0 0 0 0 (-10) 2400 0,
  p 0 0 0 0 0 0 0 0 0 0 1 (-55) 1,
  p 0 0 0 0 0 0 0 0 0 0 (-2267) (-8) 0,
  p 0 0 0 0 0 0 0 0 0 0 51 0 1,
  p 0 0 0 0 0 0 0 0 0 0 10 (-2440) 0,
  p 0 0 0 0 0 0 0 0 0 0 1 55 1,
  p 0 0 0 0 0 0 0 0 0 0 (-1802) (-4) 0,
  p 0 0 0 0 0 0 0 0 0 0 40 0 1,
  p 0 0 0 0 0 0 0 0 0 0 (-10) 2440 0,
  p 0 0 0 0 0 0 0 0 0 0 1 56 1,
  p 0 0 0 0 0 0 0 0 0 0 (-1997) 12 0,
  p 0 0 0 0 0 0 0 0 0 0 45 0 1,
  p 0 0 0 0 0 0 0 0 0 0 20 2500 0,
  p 0 0 0 0 0 0 0 0 0 0 2 56 1,
  p 0 0 0 0 0 0 0 0 0 0 (-2347) 16 0,
  p 0 0 0 0 0 0 0 0 0 0 52 0 1,
  p 0 0 0 0 0 0 0 0 0 0 20 2520 0,
  p 0 0 0 0 0 0 0 0 0 0 1 (-57) 1,
  p 0 0 0 0 0 0 0 0 0 0 (-2349) 0 0,
  p 0 0 0 0 0 0 0 0 0 0 53 0 1,
  p 0 0 0 0 0 0 0 0 0 0 0 (-2531) 0,
  p 0 0 0 0 0 0 0 0 0 0 45 (-4) 1,
  p 0 0 0 0 0 0 0 0 0 0 (-2542) (-8) 0,
  p 0 0 0 0 0 0 0 0 0 0 57 0 1,
  p 0 0 0 0 0 0 0 0 0 0 0 (-191) 0,
  p 0 0 0 0 0 0 0 0 0 0 (-1) 58 1,
  p 0 0 0 0 0 0 0 0 0 0 2366 0 0,
  p 0 0 0 0 0 0 0 0 0 0 (-53) 0 1,
  p 0 0 0 0 0 0 0 0 0 0 0 2580 0,
  p 0 0 0 0 0 0 0 0 0 0 (-2617) 0 0,
  p 0 0 0 0 0 0 0 0 0 0 59 0 1,
  p 0 0 0 0 0 0 0 0 0 0 0 (-19) 0,
  p 0 0 0 0 0 0 0 0 0 0 (-2677) 8 0,
  p 0 0 0 0 0 0 0 0 0 0 60 0 1,
  p 0 0 0 0 0 0 0 0 0 0 0 141 0,
  p 0 0 0 0 0 0 0 0 0 0 (-1) 62 1,
  p 0 0 0 0 0 0 0 0 0 0 1958 (-12) 0,
  p 0 0 0 0 0 0 0 0 0 0 (-44) 0 1,
  p 0 0 0 0 0 0 0 0 0 0 10 2750 0,
  p 0 0 0 0 0 0 0 0 0 0 (-1) (-62) 1,
  p 0 0 0 0 0 0 0 0 0 0 2101 0 0,
  p 0 0 0 0 0 0 0 0 0 0 (-47) 0 1,
  p 0 0 0 0 0 0 0 0 0 0 0 (-2791) 0,
  p 0 0 0 0 0 0 0 0 0 0 2 66 1,
  p 0 0 0 0 0 0 0 0 0 0 (-2761) 20 0,
  p 0 0 0 0 0 0 0 0 0 0 62 0 1,
  p 0 0 0 0 0 0 0 0 0 0 20 2940 0,
  p 0 0 0 0 0 0 0 0 0 0 1 68 1,
  p 0 0 0 0 0 0 0 0 0 0 (-2800) 0 0,
  p 0 0 0 0 0 0 0 0 0 0 63 0 1,
  p 0 0 0 0 0 0 0 0 0 0 0 3040 0,
  p 0 0 0 0 0 0 0 0 0 0 (-3047) 4 0,
  p 0 0 0 0 0 0 0 0 0 0 68 0 1,
  p 0 0 0 0 0 0 0 0 0 0 0 91 0,
  p 0 0 0 0 0 0 0 0 0 0 1 71 1,
  p 0 0 0 0 0 0 0 0 0 0 (-2328) (-8) 0,
  p 0 0 0 0 0 0 0 0 0 0 52 0 1,
  p 0 0 0 0 0 0 0 0 0 0 (-10) 3161 0,
  p 0 0 0 0 0 0 0 0 0 0 (-1) (-73) 1,
  p 0 0 0 0 0 0 0 0 0 0 2835 (-16) 0,
  p 0 0 0 0 0 0 0 0 0 0 (-63) 0 1,
  p 0 0 0 0 0 0 0 0 0 0 20 (-3255) 0,
  p 0 0 0 0 0 0 0 0 0 0 (-2) 77 1,
  p 0 0 0 0 0 0 0 0 0 0 2654 4 0,
  p 0 0 0 0 0 0 0 0 0 0 (-59) 0 1,
  p 0 0 0 0 0 0 0 0 0 0 (-10) 3459 0,
  p 0 0 0 0 0 0 0 0 0 0 (-3481) 4 0,
  p 0 0 0 0 0 0 0 0 0 0 78 0 1,
  p 0 0 0 0 0 0 0 0 0 0 0 289 0,
  p 0 0 0 0 0 0 0 0 0 0 (-1) 83 1,
  p 0 0 0 0 0 0 0 0 0 0 2654 (-12) 0,
  p 0 0 0 0 0 0 0 0 0 0 (-59) 0 1,
  p 0 0 0 0 0 0 0 0 0 0 10 3695 0,
  p 0 0 0 0 0 0 0 0 0 0 3775 4 0,
  p 0 0 0 0 0 0 0 0 0 0 (-84) 0 1,
  p 0 0 0 0 0 0 0 0 0 0 10 80 0,
  p 0 0 0 0 0 0 0 0 0 0 (-2) (-87) 1,
  p 0 0 0 0 0 0 0 0 0 0 2850 (-8) 0,
  p 0 0 0 0 0 0 0 0 0 0 (-64) 0 1,
  p 0 0 0 0 0 0 0 0 0 0 (-10) (-3892) 0,
  p 0 0 0 0 0 0 0 0 0 0 2 (-87) 1,
  p 0 0 0 0 0 0 0 0 0 0 (-2953) 4 0,
  p 0 0 0 0 0 0 0 0 0 0 66 0 1,
  p 0 0 0 0 0 0 0 0 0 0 0 (-3911) 0,
  p 0 0 0 0 0 0 0 0 0 0 (-2) (-88) 1,
  p 0 0 0 0 0 0 0 0 0 0 3668 (-4) 0,
  p 0 0 0 0 0 0 0 0 0 0 (-82) 0 1,
  p 0 0 0 0 0 0 0 0 0 0 (-10) (-3950) 0,
  p 0 0 0 0 0 0 0 0 0 0 (-2) (-89) 1,
  p 0 0 0 0 0 0 0 0 0 0 3715 (-12) 0,
  p 0 0 0 0 0 0 0 0 0 0 (-83) 0 1,
  p 0 0 0 0 0 0 0 0 0 0 (-10) (-3990) 0,
  p 0 0 0 0 0 0 0 0 0 0 4033 (-4) 0,
  p 0 0 0 0 0 0 0 0 0 0 (-90) 0 1,
  p 0 0 0 0 0 0 0 0 0 0 10 40 0,
  p 0 0 0 0 0 0 0 0 0 0 (-2) (-94) 1,
  p 0 0 0 0 0 0 0 0 0 0 3243 (-4) 0,
  p 0 0 0 0 0 0 0 0 0 0 (-73) 0 1,
  p 0 0 0 0 0 0 0 0 0 0 (-10) (-4219) 0,
  p 0 0 0 0 0 0 0 0 0 0 2 (-98) 1,
  p 11 0 (-5) 6 0 0 0 0 0 0 0 24 0,
  p 0 0 0 0 0 0 0 0 0 0 (-3322) 8 0,
  p 0 0 0 0 0 0 0 0 0 0 74 0 1,
  p 11 0 (-5) 6 0 0 0 0 0 0 (-30) 0 0,
  p 0 0 0 0 0 0 0 0 0 0 (-10) (-4404) 0,
  p 0 0 0 0 0 0 0 0 0 0 3 104 1,
  p 0 0 0 0 0 0 0 0 0 0 (-4376) 36 0,
  p 0 0 0 0 0 0 0 0 0 0 98 (-1) 1,
  p 0 0 0 0 0 0 0 0 0 0 40 4650 0,
  p 0 0 0 0 0 0 0 0 0 0 3 (-110) 1,
  p 0 0 0 0 0 0 0 0 0 0 (-4559) (-12) 0,
  p 0 0 0 0 0 0 0 0 0 0 102 0 1,
  p 0 0 0 0 0 0 0 0 0 0 10 (-4900) 0,
  p 0 0 0 0 0 0 0 0 0 0 4 (-111) 1,
  p 7 0 0 (-3) 4 0 0 0 0 0 12 0 0,
  p 4 0 0 (-2) 2 0 0 0 0 0 (-20) 0 0,
  p 7 0 (-3) 4 0 0 0 0 0 0 0 92 0,
  p 0 0 0 0 0 0 0 0 0 0 (-4058) (-100) 0,
  p 0 0 0 0 0 0 0 0 0 0 91 2 1,
  p 7 0 0 (-3) 4 0 0 0 0 0 0 20 0,
  p 4 0 0 (-2) 2 0 0 0 0 0 0 (-30) 0,
  p 7 0 (-3) 4 0 0 0 0 0 0 (-130) 0 0,
  p 0 0 0 0 0 0 0 0 0 0 100 (-4951) 0,
  p 0 0 0 0 0 0 0 0 0 0 2 111 1,
  p 0 0 0 0 0 0 0 0 0 0 (-3857) 8 0,
  p 0 0 0 0 0 0 0 0 0 0 86 0 1,
  p 0 0 0 0 0 0 0 0 0 0 10 4959 0,
  p 0 0 0 0 0 0 0 0 0 0 (-5100) (-12) 0,
  p 0 0 0 0 0 0 0 0 0 0 114 0 1,
  p 0 0 0 0 0 0 0 0 0 0 (-10) (-230) 0,
  p 0 0 0 0 0 0 0 0 0 0 (-3) 116 1,
  p 0 0 0 0 0 0 0 0 0 0 4829 20 0,
  p 0 0 0 0 0 0 0 0 0 0 (-108) 0 1,
  p 0 0 0 0 0 0 0 0 0 0 (-20) 5180 0,
  p 0 0 0 0 0 0 0 0 0 0 (-2) (-118) 1,
  p 0 0 0 0 0 0 0 0 0 0 4054 (-4) 0,
  p 0 0 0 0 0 0 0 0 0 0 (-91) 0 1,
  p 0 0 0 0 0 0 0 0 0 0 (-10) (-5269) 0,
  p 0 0 0 0 0 0 0 0 0 0 3 (-9) 1,
  p 0 0 0 0 0 0 0 0 0 0 (-5322) (-20) 0,
  p 0 0 0 0 0 0 0 0 0 0 119 0 1,
  p 0 0 0 0 0 0 0 0 0 0 0 (-391) 0,
  p 0 0 0 0 0 0 0 0 0 0 (-3) (-124) 1,
  p 0 0 0 0 0 0 0 0 0 0 5132 0 0,
  p 0 0 0 0 0 0 0 0 0 0 (-115) 0 1,
  p 0 0 0 0 0 0 0 0 0 0 0 (-5560) 0,
  p 0 0 0 0 0 0 0 0 0 0 3 (-132) 1,
  p 4 0 0 (-2) 0 2 0 0 0 0 12 0 0,
  p 0 0 0 0 0 0 0 0 0 0 (-5481) (-8) 0,
  p 0 0 0 0 0 0 0 0 0 0 123 0 1,
  p 4 0 0 (-2) 0 2 0 0 0 0 0 10 0,
  p 0 0 0 0 0 0 0 0 0 0 20 (-5920) 0,
  p 0 0 0 0 0 0 0 0 0 0 3 (-136) 1,
  p 0 0 0 0 0 0 0 0 0 0 (-5566) 16 0,
  p 0 0 0 0 0 0 0 0 0 0 124 0 1,
  p 0 0 0 0 0 0 0 0 0 0 (-20) (-6092) 0,
  p 0 0 0 0 0 0 0 0 0 0 (-3) (-11) 1,
  p 0 0 0 0 0 0 0 0 0 0 6265 (-24) 0,
  p 0 0 0 0 0 0 0 0 0 0 (-140) 1 1,
  p 0 0 0 0 0 0 0 0 0 0 0 (-500) 0,
  p 0 0 0 0 0 0 0 0 0 0 (-4) 145 1,
  p 0 0 0 0 0 0 0 0 0 0 6050 36 0,
  p 0 0 0 0 0 0 0 0 0 0 (-135) (-1) 1,
  p 0 0 0 0 0 0 0 0 0 0 (-40) 6470 0,
  p 0 0 0 0 0 0 0 0 0 0 4 148 1,
  p 0 0 0 0 0 0 0 0 0 0 (-5295) 32 0,
  p 0 0 0 0 0 0 0 0 0 0 118 (-1) 1,
  p 0 0 0 0 0 0 0 0 0 0 40 6629 0,
  p 0 0 0 0 0 0 0 0 0 0 (-3) 150 1,
  p 0 0 0 0 0 0 0 0 0 0 5102 0 0,
  p 0 0 0 0 0 0 0 0 0 0 (-114) 0 1,
  p 0 0 0 0 0 0 0 0 0 0 0 6725 0,
  p 0 0 0 0 0 0 0 0 0 0 3 (-157) 1,
  p 0 0 0 0 0 0 0 0 0 0 (-5227) 0 0,
  p 0 0 0 0 0 0 0 0 0 0 117 0 1,
  p 0 0 0 0 0 0 0 0 0 0 0 (-7001) 0,
  p 0 0 0 0 0 0 0 0 0 0 (-4) (-159) 1,
  p 0 0 0 0 0 0 0 0 0 0 6603 (-20) 0,
  p 0 0 0 0 0 0 0 0 0 0 (-148) 0 1,
  p 0 0 0 0 0 0 0 0 0 0 (-20) (-7100) 0,
  p 0 0 0 0 0 0 0 0 0 0 4 191 1,
  p 0 0 0 0 0 0 0 0 0 0 (-7856) 0 0,
  p 0 0 0 0 0 0 0 0 0 0 176 0 1,
  p 0 0 0 0 0 0 0 0 0 0 0 8532 0,
  p 0 0 0 0 0 0 0 0 0 0 199 2 1,
  p 8 0 (-3) 5 0 0 0 0 0 0 12 0 0,
  p 0 0 0 0 0 0 0 0 0 0 0 (-4153) 0,
  p 0 0 0 0 0 0 0 0 0 0 0 93 1,
  p 8 0 (-3) 5 0 0 0 0 0 0 0 20 0,
  p 0 0 0 0 0 0 0 0 0 0 8910 0 0,
  p 0 0 0 0 0 0 0 0 0 0 (-6) (-237) 1,
  p 0 0 0 0 0 0 0 0 0 0 9869 (-28) 0,
  p 0 0 0 0 0 0 0 0 0 0 (-221) 1 1,
  p 0 0 0 0 0 0 0 0 0 0 (-30) (-10620) 0,
  p 0 0 0 0 0 0 0 0 0 0 (-4) 240 1,
  p 0 0 0 0 0 0 0 0 0 0 7903 (-24) 0,
  p 0 0 0 0 0 0 0 0 0 0 (-177) 1 1,
  p 0 0 0 0 0 0 0 0 0 0 20 10731 0]

private def xyPln_7 : List Pln := [
  p 0 0 0 0 0 0 0 0 0 0 (-7) 252 1,
  p 0 0 0 0 0 0 0 0 0 0 10529 44 0,
  p 0 0 0 0 0 0 0 0 0 0 (-235) (-1) 1,
  p 0 0 0 0 0 0 0 0 0 0 (-50) 11290 0,
  p 0 0 0 0 0 0 0 0 0 0 (-5) (-253) 1,
  p 0 0 0 0 0 0 0 0 0 0 8674 (-8) 0,
  p 0 0 0 0 0 0 0 0 0 0 (-194) 0 1,
  p 0 0 0 0 0 0 0 0 0 0 (-20) (-11294) 0,
  p 0 0 0 0 0 0 0 0 0 0 (-7) 270 1,
  p 0 0 0 0 0 0 0 0 0 0 11214 28 0,
  p 0 0 0 0 0 0 0 0 0 0 (-251) (-1) 1,
  p 0 0 0 0 0 0 0 0 0 0 (-30) 12070 0,
  p 0 0 0 0 0 0 0 0 0 0 7 275 1,
  p 0 0 0 0 0 0 0 0 0 0 (-11449) 32 0,
  p 0 0 0 0 0 0 0 0 0 0 256 (-1) 1,
  p 0 0 0 0 0 0 0 0 0 0 40 12320 0,
  p 0 0 0 0 0 0 0 0 0 0 8 275 1,
  p 0 0 0 0 0 0 0 0 0 0 (-11540) 60 0,
  p 0 0 0 0 0 0 0 0 0 0 258 (-1) 1,
  p 0 0 0 0 0 0 0 0 0 0 70 12320 0,
  p 0 0 0 0 0 0 0 0 0 0 (-4) 283 1,
  p 0 0 0 0 0 0 0 0 0 0 9131 (-40) 0,
  p 0 0 0 0 0 0 0 0 0 0 (-204) 1 1,
  p 0 0 0 0 0 0 0 0 0 0 40 12664 0,
  p 0 0 0 0 0 0 0 0 0 0 (-13031) 4 0,
  p 0 0 0 0 0 0 0 0 0 0 291 0 1,
  p 0 0 0 0 0 0 0 0 0 0 0 (-90) 0,
  p 0 0 0 0 0 0 0 0 0 0 (-6) 293 1,
  p 14 0 0 5 (-9) 0 0 0 0 0 0 12 0,
  p 0 0 0 0 0 0 0 0 0 0 12198 (-8) 0,
  p 0 0 0 0 0 0 0 0 0 0 (-273) 0 1,
  p 0 0 0 0 0 0 0 0 0 0 10 13104 0,
  p 0 0 0 0 0 0 0 0 0 0 (-7) (-24) 1,
  p 0 0 0 0 0 0 0 0 0 0 13281 (-52) 0,
  p 0 0 0 0 0 0 0 0 0 0 (-297) 1 1,
  p 0 0 0 0 0 0 0 0 0 0 10 (-1077) 0,
  p 0 0 0 0 0 0 0 0 0 0 7 8 1,
  p 0 0 0 0 0 0 0 0 0 0 (-13481) 20 0,
  p 0 0 0 0 0 0 0 0 0 0 301 0 1,
  p 0 0 0 0 0 0 0 0 0 0 (-20) 351 0,
  p 7 0 0 3 (-2) 0 0 0 0 2 (-7) (-8) 1,
  p 5 0 0 1 2 0 0 0 0 2 (-7) 8 1,
  p 7 0 0 3 0 (-2) 0 0 0 2 (-9) (-6) 1,
  p 6 0 1 (-3) 0 0 0 0 0 (-2) 0 (-11) 1,
  p 9 0 2 (-5) 0 0 0 0 0 (-2) 11 0 1,
  p 7 0 3 (-2) 0 0 0 0 0 2 (-11) 0 1,
  p 16 0 6 (-8) 0 0 0 0 0 (-2) 0 (-11) 1,
  p 14 0 5 (-8) 0 0 0 0 0 (-1) (-2) (-11) 1,
  p 25 0 8 (-15) 0 0 0 0 0 (-2) 10 (-6) 1,
  p 6 0 0 1 0 (-3) 0 0 0 (-2) 0 (-12) 1,
  p 35 0 0 8 (-16) 4 5 0 0 2 0 (-12) 1,
  p 5 0 0 0 0 3 0 0 0 2 2 12 1,
  p 21 0 8 (-11) 0 0 0 0 0 (-2) 11 6 1,
  p 4 0 0 0 0 0 2 0 0 2 0 13 1,
  p 11 0 4 (-6) 0 0 0 0 0 (-1) (-13) 3 1,
  p 3 0 1 (-1) 0 0 0 0 0 (-1) (-13) (-3) 1,
  p 35 0 0 8 (-16) 4 5 0 0 (-2) 10 (-9) 1,
  p 8 0 0 4 (-2) 0 0 0 0 2 (-1) (-14) 1,
  p 3 0 0 0 0 0 2 0 0 1 14 (-6) 1,
  p 5 0 0 2 0 (-1) 0 0 0 2 (-3) 15 1,
  p 5 0 0 2 0 1 0 0 0 2 (-1) (-16) 1,
  p 5 0 2 (-1) 0 0 0 0 0 2 (-17) 0 1,
  p 23 0 8 (-13) 0 0 0 0 0 (-2) (-17) 3 1,
  p 8 0 0 4 0 (-2) 0 0 0 2 0 18 1,
  p 14 0 5 (-7) 0 0 0 0 0 (-2) 0 (-19) 1,
  p 4 0 0 1 0 1 0 0 0 2 1 25 1,
  p 15 0 5 (-8) 0 0 0 0 0 (-2) 25 2 1,
  p 8 0 0 0 0 2 (-5) 0 0 1 26 2 1,
  p 3 0 0 0 0 2 0 0 0 1 32 (-7) 1,
  p 4 0 1 1 0 0 0 0 0 2 1 33 1,
  p 4 0 2 0 0 0 0 0 0 2 (-1) (-36) 1,
  p 19 0 0 6 (-8) 3 0 0 0 2 (-41) (-11) 1,
  p 8 0 2 (-4) 0 0 0 0 0 (-2) (-1) 44 1,
  p 6 0 0 3 0 (-1) 0 0 0 2 0 (-45) 1,
  p 15 0 0 2 (-8) 3 0 0 0 (-2) 44 14 1,
  p 12 0 4 (-6) 0 0 0 0 0 (-2) 1 (-48) 1,
  p 22 0 8 (-13) 0 0 0 0 0 (-1) 31 60 1,
  p 4 0 0 0 0 2 0 0 0 2 2 113 1,
  p 10 0 3 (-5) 0 0 0 0 0 (-2) (-4) 200 1,
  p 8 0 0 0 0 2 (-5) 0 0 (-1) 285 (-177) 1,
  p 1 0 0 0 1 0 0 0 0 0 8 4 0,
  p 2 0 0 0 0 0 0 0 0 2 12 0 0,
  p 1 0 0 0 0 0 0 1 0 0 0 12 0,
  p 3 0 0 0 0 1 (-2) 0 0 0 0 12 0,
  p 13 0 0 0 0 2 (-6) 3 0 (-2) 12 0 0,
  p 4 0 0 1 (-3) 0 0 0 0 0 0 12 0,
  p 9 0 0 1 0 (-3) 5 0 0 0 12 0 0,
  p 4 0 0 1 0 0 (-3) 0 0 0 (-12) 0 0,
  p 5 0 0 1 0 0 2 0 0 2 0 (-12) 0,
  p 7 0 0 1 0 1 (-5) 0 0 0 (-12) 0 0,
  p 3 0 0 1 0 1 0 0 0 1 0 12 0,
  p 18 0 0 2 (-8) 1 5 0 0 (-2) 0 (-12) 0,
  p 5 0 0 2 0 0 (-3) 0 0 0 0 12 0,
  p 6 0 0 2 0 2 0 0 0 2 12 0 0,
  p 5 0 0 2 1 0 0 0 0 2 12 0 0,
  p 14 0 0 3 (-9) 0 0 0 0 (-2) 0 (-12) 0,
  p 12 0 0 3 (-7) 0 0 0 0 (-2) 0 (-12) 0,
  p 9 0 0 3 (-5) 0 0 0 0 (-1) 0 (-12) 0,
  p 10 0 0 3 0 (-5) 0 0 0 (-2) (-12) 0 0,
  p 16 0 0 4 (-8) 3 0 0 0 (-1) 12 0 0,
  p 16 0 0 4 (-8) 3 0 0 0 1 12 0 0,
  p 12 0 0 4 (-7) 0 0 0 0 (-1) (-12) 0 0,
  p 32 0 0 5 (-16) 4 5 0 0 (-2) 12 0 0,
  p 20 0 0 5 (-13) 0 0 0 0 (-2) (-12) 0 0,
  p 15 0 0 5 (-9) 0 0 0 0 (-1) (-12) 0 0,
  p 18 0 0 5 (-8) 3 0 0 0 2 (-12) 0 0,
  p 14 0 0 5 (-7) 0 0 0 0 (-2) (-12) 0 0,
  p 11 0 0 5 (-6) 0 0 0 0 0 12 0 0,
  p 11 0 0 5 0 (-4) 0 0 0 2 (-12) 0 0,
  p 16 0 0 6 (-10) 0 0 0 0 0 0 12 0,
  p 17 0 0 6 (-9) 0 0 0 0 (-2) (-12) 0 0,
  p 22 0 0 6 (-8) 1 5 0 0 2 0 (-12) 0,
  p 12 0 0 6 (-4) 0 0 0 0 2 (-12) 0 0,
  p 21 0 0 7 (-12) 0 0 0 0 (-2) 0 12 0,
  p 16 0 0 7 (-7) 0 0 0 0 2 0 12 0,
  p 28 0 0 9 (-17) 0 0 0 0 (-2) (-12) 0 0,
  p 6 0 1 (-4) 0 0 0 0 0 (-1) 12 0 0,
  p 4 0 1 (-1) 0 0 0 0 0 (-2) 12 0 0,
  p 2 0 2 0 0 0 0 0 0 0 (-12) 0 0,
  p 4 0 2 1 0 0 0 0 0 1 0 12 0,
  p 8 0 3 (-4) 0 0 0 0 0 1 12 0 0,
  p 10 0 3 (-3) 0 2 0 0 0 2 (-12) 0 0,
  p 4 0 3 (-1) 0 0 0 0 0 0 (-12) 0 0,
  p 14 0 4 (-8) 0 0 0 0 0 (-2) 12 0 0,
  p 9 0 4 (-5) 0 0 0 0 0 0 0 (-12) 0,
  p 6 0 4 (-2) 0 0 0 0 0 0 0 12 0,
  p 17 0 5 (-6) (-4) 0 0 0 0 (-2) (-12) 0 0,
  p 13 0 5 (-6) 0 0 0 0 0 (-2) 0 (-12) 0,
  p 12 0 5 (-6) 0 0 0 0 0 (-1) (-12) 0 0,
  p 11 0 5 (-4) 0 0 0 0 0 2 0 12 0,
  p 15 0 6 (-9) 0 0 0 0 0 0 0 (-12) 0,
  p 14 0 6 (-8) 0 0 0 0 0 0 (-12) 0 0,
  p 14 0 6 (-7) 0 0 0 0 0 (-1) (-12) 0 0,
  p 13 0 6 (-6) 0 0 0 0 0 1 0 (-12) 0,
  p 11 0 6 (-4) 0 0 0 0 0 1 0 (-12) 0,
  p 19 0 7 (-11) 0 0 0 0 0 (-1) 0 (-12) 0,
  p 24 0 8 (-14) 0 0 0 0 0 (-2) 12 0 0,
  p 20 0 8 (-11) 0 0 0 0 0 (-1) (-12) 0 0,
  p 24 0 9 (-13) 0 0 0 0 0 (-2) 12 0 0,
  p 4 0 0 0 0 2 (-2) 0 0 0 (-16) 0 0,
  p 8 0 0 0 0 3 (-5) 0 0 0 0 (-16) 0,
  p 3 0 0 1 0 (-1) 0 0 0 (-1) 0 (-16) 0,
  p 2 0 0 1 0 0 0 0 0 (-1) 16 0 0,
  p 7 0 0 2 (-4) 0 0 0 0 1 16 0 0,
  p 5 0 0 2 0 0 (-2) 0 0 1 0 16 0,
  p 16 0 0 3 (-8) 3 0 0 0 (-2) 16 0 0,
  p 5 0 0 3 0 0 0 0 0 2 0 16 0,
  p 18 0 0 6 (-10) 0 0 0 0 (-2) 0 16 0,
  p 18 0 0 7 (-9) 0 0 0 0 2 0 (-16) 0,
  p 17 0 0 7 (-8) 0 0 0 0 2 0 (-16) 0,
  p 4 0 1 (-2) 0 0 0 0 0 (-1) 16 0 0,
  p 2 0 1 1 0 0 0 0 0 0 (-16) 0 0,
  p 8 0 2 (-5) 0 0 0 0 0 (-1) 16 0 0,
  p 13 0 3 (-8) 0 0 0 0 0 (-2) 0 16 0,
  p 9 0 3 (-6) 0 0 0 0 0 0 0 (-16) 0,
  p 11 0 4 (-5) 0 0 0 0 0 (-2) 0 (-16) 0,
  p 11 0 5 (-5) 0 0 0 0 0 1 0 (-16) 0,
  p 18 0 7 (-10) 0 0 0 0 0 (-1) (-16) 0 0,
  p 17 0 8 (-9) 0 0 0 0 0 0 0 16 0,
  p 6 0 2 (-3) 0 0 0 0 0 1 12 (-12) 0,
  p 5 0 0 0 0 0 0 1 (-2) (-2) 0 20 0,
  p 3 0 0 0 0 0 0 2 0 1 0 (-20) 0,
  p 8 0 0 1 0 (-5) 0 0 0 (-2) (-20) 0 0,
  p 5 0 0 1 0 (-3) 0 0 0 (-1) 0 (-20) 0,
  p 5 0 0 1 0 (-2) 0 0 0 (-2) 20 0 0,
  p 10 0 0 1 0 (-2) 5 0 0 2 0 20 0,
  p 9 0 0 2 0 (-5) 0 0 0 (-2) (-20) 0 0,
  p 2 0 0 2 0 0 0 0 0 0 (-20) 0 0,
  p 7 0 0 3 0 (-4) 0 0 0 0 20 0 0,
  p 10 0 0 4 0 (-4) 0 0 0 2 (-20) 0 0,
  p 17 0 0 5 (-10) 0 0 0 0 (-2) 0 (-20) 0,
  p 15 0 0 6 (-9) 0 0 0 0 0 0 (-20) 0,
  p 9 0 3 (-4) 0 0 0 0 0 (-2) 0 (-20) 0,
  p 10 0 4 (-5) 0 0 0 0 0 (-1) (-20) 0 0,
  p 9 0 5 (-3) 0 0 0 0 0 1 0 (-20) 0,
  p 17 0 6 (-10) 0 0 0 0 0 (-1) 0 20 0,
  p 21 0 9 (-11) 0 0 0 0 0 (-1) 0 20 0,
  p 19 0 9 (-9) 0 0 0 0 0 (-1) 0 20 0,
  p 4 0 0 4 0 0 0 0 0 0 12 (-16) 0,
  p 7 0 1 (-4) 0 0 0 0 0 (-2) (-12) (-16) 0,
  p 5 0 0 1 0 (-4) 0 0 0 0 (-16) 16 0,
  p 6 0 0 2 2 0 0 0 0 2 (-16) 16 0,
  p 10 0 0 2 (-6) 0 0 0 0 (-2) 12 (-20) 0,
  p 12 0 0 4 (-8) 0 0 0 0 0 12 20 0,
  p 15 0 0 5 (-8) 0 0 0 0 (-2) (-20) 12 0,
  p 5 1 0 (-4) 0 0 0 0 0 0 20 12 0,
  p 4 0 0 0 0 0 0 0 2 2 (-24) 0 0,
  p 7 0 0 0 0 0 5 0 0 2 (-24) 0 0,
  p 2 0 0 0 2 0 0 0 0 0 24 0 0,
  p 11 0 0 2 (-7) 0 0 0 0 (-2) 0 (-24) 0,
  p 6 0 0 2 0 (-2) 0 0 0 2 (-24) 0 0,
  p 20 0 0 4 (-8) 1 5 0 0 2 0 24 0,
  p 12 0 0 4 (-6) 0 0 0 0 (-2) (-24) 0 0,
  p 13 0 0 5 (-6) 0 0 0 0 2 0 (-24) 0,
  p 15 0 7 (-8) 0 0 0 0 0 0 0 24 0,
  p 26 0 8 (-16) 0 0 0 0 0 (-2) 24 0 0,
  p 22 0 8 (-12) 0 0 0 0 0 (-2) 24 0 0,
  p 9 0 0 2 (-5) 0 0 0 0 (-2) 24 (-12) 0,
  p 13 0 0 6 (-5) 0 0 0 0 2 (-24) 12 0,
  p 5 0 1 (-2) 0 0 0 0 0 (-2) 12 (-24) 0]

private def xyPln_8 : List Pln := [
  p 14 0 3 (-7) 4 0 0 0 0 0 (-28) 0 0,
  p 4 0 0 0 0 0 0 2 0 2 (-28) 0 0,
  p 11 0 0 0 0 4 (-5) 0 0 2 28 0 0,
  p 9 0 0 1 (-6) 0 0 0 0 (-2) 0 (-28) 0,
  p 3 0 0 1 0 (-1) 0 0 0 1 0 28 0,
  p 7 0 0 3 0 0 (-2) 0 0 2 0 (-28) 0,
  p 8 0 0 4 0 0 (-2) 0 0 2 (-28) 0 0,
  p 15 0 0 6 (-7) 0 0 0 0 2 0 (-28) 0,
  p 7 0 0 6 0 0 0 0 0 1 0 28 0,
  p 10 0 3 (-6) 0 0 0 0 0 (-1) 28 0 0,
  p 8 0 3 (-4) 0 0 0 0 0 (-1) (-28) 0 0,
  p 7 0 4 (-2) 0 0 0 0 0 1 0 (-28) 0,
  p 19 0 8 (-10) 0 0 0 0 0 (-1) 0 28 0,
  p 17 0 8 (-8) 0 0 0 0 0 (-1) 0 28 0,
  p 6 0 2 (-4) 0 0 0 0 0 0 20 (-20) 0,
  p 20 0 0 4 (-8) 1 5 0 0 (-2) (-12) (-28) 0,
  p 3 0 1 0 0 0 0 0 0 2 (-20) 24 0,
  p 22 0 8 (-13) 0 0 0 0 0 1 20 (-24) 0,
  p 26 0 0 9 (-17) 0 0 0 0 0 20 (-24) 0,
  p 3 0 0 0 0 0 1 0 0 2 0 32 0,
  p 8 0 0 4 (-4) 0 0 0 0 0 32 0 0,
  p 9 0 0 5 (-2) 0 0 0 0 2 0 (-32) 0,
  p 24 0 0 8 (-15) 0 0 0 0 (-1) 0 32 0,
  p 10 0 2 (-6) 0 0 0 0 0 (-2) 32 0 0,
  p 11 0 5 (-6) 0 0 0 0 0 0 0 32 0,
  p 12 0 5 (-5) 0 0 0 0 0 2 (-32) 0 0,
  p 20 0 8 (-12) 0 0 0 0 0 0 32 0 0,
  p 4 0 1 (-3) 0 0 0 0 0 0 32 (-12) 0,
  p 17 0 5 (-10) 0 0 0 0 0 (-2) 12 32 0,
  p 6 0 0 1 0 3 0 0 0 2 (-20) (-28) 0,
  p 12 0 0 5 (-7) 0 0 0 0 0 20 (-28) 0,
  p 4 0 0 0 0 0 3 0 0 1 32 (-16) 0,
  p 22 0 0 7 (-13) 0 0 0 0 (-2) 16 32 0,
  p 8 0 4 (-2) 0 0 0 0 0 2 32 (-16) 0,
  p 10 0 0 3 (-6) 0 0 0 0 (-1) 36 0 0,
  p 5 0 0 3 (-2) 0 0 0 0 0 0 36 0,
  p 10 0 0 5 0 (-3) 0 0 0 2 (-36) 0 0,
  p 9 0 4 (-3) 0 0 0 0 0 2 0 36 0,
  p 16 0 6 (-9) 0 0 0 0 0 (-1) (-36) 0 0,
  p 13 0 6 (-7) 0 0 0 0 0 0 0 36 0,
  p 15 0 7 (-7) 0 0 0 0 0 (-1) 0 36 0,
  p 6 0 0 0 0 4 0 0 0 2 (-36) 12 0,
  p 9 0 3 (-5) 0 0 0 0 0 1 (-12) (-36) 0,
  p 10 0 3 (-5) 0 2 0 0 0 0 40 0 0,
  p 10 0 0 5 (-3) 0 0 0 0 2 (-40) 0 0,
  p 4 0 1 (-2) 0 0 0 0 0 1 (-40) 0 0,
  p 5 0 3 (-1) 0 0 0 0 0 1 0 (-40) 0,
  p 9 0 4 (-4) 0 0 0 0 0 1 0 (-40) 0,
  p 16 0 5 (-9) 0 0 0 0 0 (-2) (-40) 0 0,
  p 23 0 9 (-12) 0 0 0 0 0 (-2) 0 (-40) 0,
  p 20 0 0 7 (-13) 0 0 0 0 0 40 0 0,
  p 8 0 0 1 (-5) 0 0 0 0 (-2) 20 (-36) 0,
  p 13 0 5 (-6) 0 0 0 0 0 2 12 40 0,
  p 7 1 0 (-4) 0 0 0 0 0 (-2) 16 40 0,
  p 17 0 0 6 (-11) 0 0 0 0 0 36 24 0,
  p 14 0 0 6 (-6) 0 0 0 0 2 24 (-36) 0,
  p 6 0 0 1 (-3) 0 0 0 0 (-2) 44 0 0,
  p 13 0 0 5 (-8) 0 0 0 0 0 0 44 0,
  p 19 0 0 6 (-11) 0 0 0 0 (-2) 0 44 0,
  p 10 0 4 (-4) 0 0 0 0 0 2 44 (-12) 0,
  p 14 0 0 4 (-8) 0 0 0 0 (-2) 24 (-40) 0,
  p 6 0 0 2 0 (-4) 0 0 0 0 44 16 0,
  p 9 0 0 0 0 2 (-5) 0 0 2 (-48) 0 0,
  p 6 0 0 3 0 1 0 0 0 2 (-20) (-44) 0,
  p 23 0 0 6 (-15) 0 0 0 0 (-2) (-44) 20 0,
  p 13 0 0 11 0 0 0 0 0 2 (-44) 20 0,
  p 7 0 2 (-3) 0 0 0 0 0 (-2) (-20) (-44) 0,
  p 9 0 0 5 0 (-2) 0 0 0 2 12 48 0,
  p 7 0 3 (-3) 0 0 0 0 0 1 12 48 0,
  p 12 0 4 (-7) 0 0 0 0 0 (-1) 48 (-12) 0,
  p 17 0 7 (-9) 0 0 0 0 0 (-1) 12 48 0,
  p 11 0 0 2 0 2 (-5) 0 0 2 (-44) (-24) 0,
  p 5 0 0 3 0 (-2) 0 0 0 0 (-16) (-48) 0,
  p 4 0 0 1 1 0 0 0 0 2 (-52) 0 0,
  p 18 0 9 (-9) 0 0 0 0 0 0 52 0 0,
  p 12 0 0 3 0 2 (-5) 0 0 2 20 48 0,
  p 5 0 2 (-2) 0 0 0 0 0 1 (-12) (-52) 0,
  p 13 0 6 (-6) 0 0 0 0 0 (-1) (-12) 52 0,
  p 11 0 0 2 0 (-2) 5 0 0 2 48 (-24) 0,
  p 2 0 0 1 0 1 0 0 0 0 32 44 0,
  p 12 0 0 5 (-5) 0 0 0 0 2 28 (-48) 0,
  p 4 0 0 1 0 0 1 0 0 2 (-56) 0 0,
  p 6 0 0 6 0 0 0 0 0 0 56 0 0,
  p 3 0 0 0 0 0 0 0 2 1 (-36) (-44) 0,
  p 8 0 0 3 0 (-3) 0 0 0 2 36 (-44) 0,
  p 10 0 5 (-3) 0 0 0 0 0 2 56 (-12) 0,
  p 16 0 0 5 (-9) 0 0 0 0 (-2) (-32) 48 0,
  p 14 0 0 5 (-9) 0 0 0 0 0 28 52 0,
  p 5 0 0 0 0 0 3 0 0 2 0 60 0,
  p 4 0 0 2 0 0 (-2) 0 0 0 60 0 0,
  p 3 0 2 0 0 0 0 0 0 1 16 (-60) 0,
  p 8 0 0 6 0 0 0 0 0 2 52 36 0,
  p 14 0 3 (-5) 4 0 0 0 0 2 (-52) 36 0,
  p 25 0 0 8 (-15) 0 0 0 0 (-2) 56 32 0,
  p 20 0 7 (-11) 0 0 0 0 0 (-2) 64 (-12) 0,
  p 18 0 3 (-9) 4 0 0 0 0 (-2) (-56) 36 0,
  p 12 0 5 (-7) 0 0 0 0 0 0 64 (-20) 0,
  p 8 0 0 2 0 (-4) 0 0 0 (-2) (-68) 0 0,
  p 10 0 0 3 (-5) 0 0 0 0 (-2) (-68) 0 0,
  p 9 0 0 4 (-5) 0 0 0 0 0 64 (-24) 0,
  p 5 0 3 0 0 0 0 0 0 2 68 (-12) 0,
  p 5 0 1 2 0 0 0 0 0 2 16 68 0,
  p 11 0 5 (-5) 0 0 0 0 0 (-1) (-16) 68 0,
  p 6 0 0 3 0 (-3) 0 0 0 0 72 (-12) 0,
  p 13 0 0 4 (-7) 0 0 0 0 (-2) (-64) 36 0,
  p 5 0 0 2 0 0 1 0 0 2 0 (-76) 0,
  p 6 0 0 3 (-1) 0 0 0 0 2 76 0 0,
  p 16 0 8 (-8) 0 0 0 0 0 0 76 0 0,
  p 15 0 6 (-8) 0 0 0 0 0 (-1) 20 76 0,
  p 3 0 2 (-1) 0 0 0 0 0 0 24 76 0,
  p 5 0 0 2 0 0 (-1) 0 0 2 0 (-80) 0,
  p 5 0 0 0 3 0 0 0 0 2 (-72) (-40) 0,
  p 7 0 0 1 (-4) 0 0 0 0 (-2) 76 (-32) 0,
  p 3 0 0 1 0 0 (-2) 0 0 0 (-24) 80 0,
  p 16 0 0 5 (-8) 3 0 0 0 0 84 12 0,
  p 5 0 0 2 0 (-2) 0 0 0 1 (-16) 84 0,
  p 14 0 0 3 (-8) 3 0 0 0 0 (-76) (-44) 0,
  p 11 0 0 4 (-7) 0 0 0 0 0 0 88 0,
  p 3 0 1 1 0 0 0 0 0 1 20 (-91) 0,
  p 4 0 0 0 0 3 0 0 0 1 24 91 0,
  p 19 0 7 (-10) 0 0 0 0 0 (-2) 0 (-95) 0,
  p 4 0 0 1 (-2) 0 0 0 0 1 91 28 0,
  p 18 0 6 (-10) 0 0 0 0 0 (-2) (-95) 20 0,
  p 9 0 4 (-4) 0 0 0 0 0 (-1) (-24) 95 0,
  p 2 0 0 1 (-1) 0 0 0 0 0 (-99) 0 0,
  p 20 0 0 7 (-8) 3 0 0 0 2 (-99) 0 0,
  p 14 0 0 1 (-8) 3 0 0 0 (-2) 88 48 0,
  p 7 0 0 2 (-4) 0 0 0 0 (-1) 56 84 0,
  p 9 0 0 0 0 2 (-5) 0 0 (-2) (-44) (-95) 0,
  p 6 0 0 3 (-3) 0 0 0 0 0 107 0 0,
  p 11 0 3 (-6) 0 0 0 0 0 (-2) 0 (-107) 0,
  p 11 0 0 3 (-6) 0 0 0 0 (-2) 95 (-52) 0,
  p 14 0 7 (-7) 0 0 0 0 0 0 111 0 0,
  p 10 0 0 4 (-6) 0 0 0 0 0 (-64) 91 0,
  p 1 0 0 1 0 0 0 0 0 0 32 (-107) 0,
  p 1 0 1 0 0 0 0 0 0 0 (-16) (-111) 0,
  p 6 0 0 3 0 0 (-1) 0 0 2 115 0 0,
  p 9 0 0 4 (-3) 0 0 0 0 2 103 (-56) 0,
  p 5 0 2 1 0 0 0 0 0 2 76 (-91) 0,
  p 6 0 2 (-3) 0 0 0 0 0 (-1) (-119) (-12) 0,
  p 7 0 0 1 0 (-4) 0 0 0 (-2) (-119) (-24) 0,
  p 9 0 0 3 (-6) 0 0 0 0 0 0 123 0,
  p 6 0 3 (-1) 0 0 0 0 0 2 123 (-24) 0,
  p 5 0 1 (-3) 0 0 0 0 0 (-1) (-32) (-123) 0,
  p 7 0 0 4 0 (-1) 0 0 0 2 (-12) (-127) 0,
  p 8 0 0 1 0 2 (-5) 0 0 0 (-52) (-119) 0,
  p 3 0 1 (-1) 0 0 0 0 0 1 (-28) (-127) 0,
  p 2 0 0 0 0 2 0 0 0 0 (-99) 88 0,
  p 22 0 9 (-11) 0 0 0 0 0 (-2) (-135) 0 0,
  p 10 0 0 4 (-4) 0 0 0 0 2 72 (-115) 0,
  p 7 0 3 (-3) 0 0 0 0 0 (-1) (-32) 135 0,
  p 3 0 0 2 0 (-1) 0 0 0 0 0 139 0,
  p 11 0 0 5 (-4) 0 0 0 0 2 119 (-72) 0,
  p 2 0 0 0 0 0 1 0 0 (-1) (-127) 60 0,
  p 13 0 5 (-7) 0 0 0 0 0 (-1) 32 139 0,
  p 3 0 0 2 0 0 0 0 0 1 28 (-143) 0,
  p 9 0 0 4 0 (-3) 0 0 0 2 (-147) (-28) 0,
  p 6 0 0 0 4 0 0 0 0 2 (-84) (-127) 0,
  p 8 0 0 3 (-5) 0 0 0 0 0 (-80) 135 0,
  p 12 0 6 (-6) 0 0 0 0 0 0 159 0 0,
  p 13 0 5 (-8) 0 0 0 0 0 0 (-56) (-155) 0,
  p 17 0 6 (-9) 0 0 0 0 0 (-2) 0 (-179) 0,
  p 4 0 0 1 0 (-3) 0 0 0 0 (-111) 143 0,
  p 4 0 0 1 (-2) 0 0 0 0 (-1) (-24) 187 0,
  p 2 0 0 0 0 0 1 0 0 1 187 32 0,
  p 10 0 4 (-6) 0 0 0 0 0 0 (-183) 56 0,
  p 20 0 8 (-10) 0 0 0 0 0 (-2) (-199) 12 0,
  p 23 0 0 8 (-15) 0 0 0 0 0 179 (-88) 0,
  p 9 0 3 (-5) 0 0 0 0 0 (-1) (-44) (-195) 0,
  p 8 0 0 2 (-4) 0 0 0 0 (-2) 203 0 0,
  p 2 0 0 0 0 1 0 0 0 (-1) 52 207 0,
  p 2 0 0 0 0 1 0 0 0 1 24 215 0,
  p 8 0 3 (-3) 0 0 0 0 0 2 215 (-60) 0,
  p 5 0 2 (-2) 0 0 0 0 0 (-1) (-48) 219 0,
  p 3 0 0 0 0 1 0 0 0 2 207 91 0,
  p 1 0 0 0 0 0 1 0 0 0 44 223 0,
  p 10 0 5 (-5) 0 0 0 0 0 0 235 0 0,
  p 5 0 0 1 0 2 0 0 0 2 (-139) (-191) 0,
  p 7 0 2 (-4) 0 0 0 0 0 (-1) (-56) (-235) 0,
  p 12 0 3 (-7) 0 0 0 0 0 (-2) 251 (-64) 0,
  p 13 0 4 (-7) 0 0 0 0 0 (-2) (-12) 263 0,
  p 4 0 0 0 2 0 0 0 0 2 (-294) 0 0,
  p 18 0 7 (-9) 0 0 0 0 0 (-2) (-294) 0 0,
  p 2 0 0 1 0 0 (-1) 0 0 0 (-298) 0 0,
  p 5 0 0 2 (-3) 0 0 0 0 0 (-270) 155 0,
  p 8 0 4 (-4) 0 0 0 0 0 0 330 0 0,
  p 5 0 0 2 0 (-3) 0 0 0 0 330 60 0,
  p 33 0 0 6 (-16) 4 5 0 0 (-2) 0 (-342) 0,
  p 4 0 0 2 0 0 0 0 0 2 (-354) 0 0,
  p 6 0 3 (-3) 0 0 0 0 0 0 354 0 0,
  p 14 0 5 (-8) 0 0 0 0 0 (-1) (-350) 68 0,
  p 3 0 1 (-2) 0 0 0 0 0 0 88 (-346) 0,
  p 7 0 0 3 (-4) 0 0 0 0 0 (-310) 179 0,
  p 7 0 0 3 (-2) 0 0 0 0 2 318 (-282) 0,
  p 3 0 1 (-1) 0 0 0 0 0 (-1) (-99) 422 0,
  p 11 0 4 (-6) 0 0 0 0 0 (-1) 99 422 0,
  p 5 0 0 1 2 0 0 0 0 2 (-338) (-278) 0,
  p 6 0 1 (-3) 0 0 0 0 0 (-2) (-449) 0 0,
  p 7 0 0 3 0 (-2) 0 0 0 2 267 (-362) 0,
  p 25 0 8 (-15) 0 0 0 0 0 (-2) (-243) (-382) 0]

private def xyPln_9 : List Pln := [
  p 9 0 2 (-5) 0 0 0 0 0 (-2) 0 (-453) 0,
  p 7 0 3 (-2) 0 0 0 0 0 2 0 (-453) 0,
  p 16 0 6 (-8) 0 0 0 0 0 (-2) (-465) 0 0,
  p 6 0 0 1 0 (-3) 0 0 0 (-2) (-469) 0 0,
  p 3 0 0 0 0 0 2 0 0 1 203 453 0,
  p 21 0 8 (-11) 0 0 0 0 0 (-2) 247 (-446) 0,
  p 5 0 0 0 0 3 0 0 0 2 (-505) 84 0,
  p 35 0 0 8 (-16) 4 5 0 0 (-2) (-223) (-465) 0,
  p 35 0 0 8 (-16) 4 5 0 0 2 497 (-171) 0,
  p 4 0 0 0 0 0 2 0 0 2 (-529) 0 0,
  p 8 0 0 4 (-2) 0 0 0 0 2 569 (-12) 0,
  p 8 0 3 (-5) 0 0 0 0 0 0 (-577) 187 0,
  p 5 0 0 2 0 (-1) 0 0 0 2 (-613) (-119) 0,
  p 5 0 0 2 0 1 0 0 0 2 648 (-48) 0,
  p 5 0 2 (-1) 0 0 0 0 0 2 20 (-688) 0,
  p 6 0 0 2 (-4) 0 0 0 0 0 (-342) 609 0,
  p 23 0 8 (-13) 0 0 0 0 0 (-2) 163 696 0,
  p 8 0 0 4 0 (-2) 0 0 0 2 (-732) (-12) 0,
  p 14 0 5 (-7) 0 0 0 0 0 (-2) (-804) 0 0,
  p 8 0 0 0 0 2 (-5) 0 0 1 56 (-867) 0,
  p 15 0 5 (-8) 0 0 0 0 0 (-2) 44 (-1038) 0,
  p 4 0 0 1 0 1 0 0 0 2 (-1042) 0 0,
  p 1 0 0 0 0 1 0 0 0 0 (-362) 986 0,
  p 3 0 0 0 0 2 0 0 0 1 203 1082 0,
  p 3 0 0 1 0 (-2) 0 0 0 0 (-660) 1070 0,
  p 7 0 3 (-4) 0 0 0 0 0 0 (-20) 1305 0,
  p 4 0 1 1 0 0 0 0 0 2 (-1348) 0 0,
  p 4 0 0 2 (-2) 0 0 0 0 0 (-1464) 0 0,
  p 4 0 2 0 0 0 0 0 0 2 1472 (-32) 0,
  p 21 0 8 (-13) 0 0 0 0 0 0 935 1329 0,
  p 4 0 0 2 0 (-2) 0 0 0 0 1643 52 0,
  p 19 0 0 6 (-8) 3 0 0 0 2 489 (-1651) 0,
  p 15 0 0 2 (-8) 3 0 0 0 (-2) 489 (-1655) 0,
  p 8 0 2 (-4) 0 0 0 0 0 (-2) 1822 0 0,
  p 22 0 8 (-13) 0 0 0 0 0 (-1) (-1691) 843 0,
  p 12 0 4 (-6) 0 0 0 0 0 (-2) (-1949) 0 0,
  p 7 0 0 0 0 2 (-5) 0 0 0 (-1953) 509 0,
  p 6 0 0 3 0 (-1) 0 0 0 2 2057 64 0,
  p 4 0 2 (-2) 0 0 0 0 0 0 (-2379) 0 0,
  p 5 0 2 (-3) 0 0 0 0 0 0 32 2442 0,
  p 3 0 0 1 (-2) 0 0 0 0 0 (-1786) 1710 0,
  p 4 0 0 0 0 2 0 0 0 2 (-4638) 0 0,
  p 2 0 0 1 0 (-1) 0 0 0 0 (-4865) (-115) 0,
  p 33 0 0 8 (-16) 4 5 0 0 0 5728 0 0,
  p 2 0 1 (-1) 0 0 0 0 0 0 5907 0 0,
  p 15 0 0 4 (-8) 3 0 0 0 0 (-1838) 6380 0,
  p 10 0 3 (-5) 0 0 0 0 0 (-2) 8214 0 0,
  p 8 0 0 0 0 2 (-5) 0 0 (-1) 5744 9582 0,
  p 7 0 0 3 (-4) 0 0 0 0 0 7 (-4) 1,
  p 3 0 1 (-1) 0 0 0 0 0 (-1) 2 (-9) 1,
  p 11 0 4 (-6) 0 0 0 0 0 (-1) (-2) (-9) 1,
  p 7 0 0 3 (-2) 0 0 0 0 2 (-7) 6 1,
  p 6 0 1 (-3) 0 0 0 0 0 (-2) 10 0 1,
  p 9 0 2 (-5) 0 0 0 0 0 (-2) 0 10 1,
  p 7 0 3 (-2) 0 0 0 0 0 2 0 10 1,
  p 16 0 6 (-8) 0 0 0 0 0 (-2) 10 0 1,
  p 6 0 0 1 0 (-3) 0 0 0 (-2) 10 0 1,
  p 5 0 0 1 2 0 0 0 0 2 8 6 1,
  p 7 0 0 3 0 (-2) 0 0 0 2 (-6) 8 1,
  p 25 0 8 (-15) 0 0 0 0 0 (-2) 5 9 1,
  p 5 0 0 0 0 3 0 0 0 2 11 (-2) 1,
  p 3 0 0 0 0 0 2 0 0 1 (-5) (-10) 1,
  p 35 0 0 8 (-16) 4 5 0 0 (-2) 5 10 1,
  p 21 0 8 (-11) 0 0 0 0 0 (-2) (-6) 10 1,
  p 35 0 0 8 (-16) 4 5 0 0 2 (-11) 4 1,
  p 4 0 0 0 0 0 2 0 0 2 12 0 1,
  p 8 0 0 4 (-2) 0 0 0 0 2 (-13) 0 1,
  p 8 0 3 (-5) 0 0 0 0 0 0 13 (-4) 1,
  p 5 0 0 2 0 1 0 0 0 2 (-14) 1 1,
  p 5 0 0 2 0 (-1) 0 0 0 2 14 3 1,
  p 5 0 2 (-1) 0 0 0 0 0 2 0 15 1,
  p 8 0 0 4 0 (-2) 0 0 0 2 16 0 1,
  p 6 0 0 2 (-4) 0 0 0 0 0 8 (-14) 1,
  p 23 0 8 (-13) 0 0 0 0 0 (-2) (-4) (-16) 1,
  p 14 0 5 (-7) 0 0 0 0 0 (-2) 18 0 1,
  p 8 0 0 0 0 2 (-5) 0 0 1 (-1) 19 1,
  p 4 0 0 1 0 1 0 0 0 2 23 0 1,
  p 15 0 5 (-8) 0 0 0 0 0 (-2) (-1) 23 1,
  p 1 0 0 0 0 1 0 0 0 0 8 (-22) 1,
  p 3 0 0 0 0 2 0 0 0 1 (-5) (-24) 1,
  p 3 0 0 1 0 (-2) 0 0 0 0 15 (-24) 1,
  p 7 0 3 (-4) 0 0 0 0 0 0 0 (-29) 1,
  p 4 0 1 1 0 0 0 0 0 2 30 0 1,
  p 4 0 0 2 (-2) 0 0 0 0 0 33 0 1,
  p 4 0 2 0 0 0 0 0 0 2 (-33) 1 1,
  p 21 0 8 (-13) 0 0 0 0 0 0 (-21) (-30) 1,
  p 4 0 0 2 0 (-2) 0 0 0 0 (-37) (-1) 1,
  p 19 0 0 6 (-8) 3 0 0 0 2 (-11) 37 1,
  p 15 0 0 2 (-8) 3 0 0 0 (-2) (-11) 37 1,
  p 8 0 2 (-4) 0 0 0 0 0 (-2) (-41) 0 1,
  p 22 0 8 (-13) 0 0 0 0 0 (-1) 38 (-19) 1,
  p 12 0 4 (-6) 0 0 0 0 0 (-2) 44 0 1,
  p 7 0 0 0 0 2 (-5) 0 0 0 44 (-11) 1,
  p 6 0 0 3 0 (-1) 0 0 0 2 (-46) (-1) 1,
  p 4 0 2 (-2) 0 0 0 0 0 0 53 0 1,
  p 5 0 2 (-3) 0 0 0 0 0 0 (-1) (-55) 1,
  p 3 0 0 1 (-2) 0 0 0 0 0 40 (-38) 1,
  p 4 0 0 0 0 2 0 0 0 2 104 0 1,
  p 2 0 0 1 0 (-1) 0 0 0 0 109 3 1,
  p 33 0 0 8 (-16) 4 5 0 0 0 (-128) 0 1,
  p 2 0 1 (-1) 0 0 0 0 0 0 (-132) 0 1,
  p 15 0 0 4 (-8) 3 0 0 0 0 41 (-143) 1,
  p 10 0 3 (-5) 0 0 0 0 0 (-2) (-184) 0 1,
  p 8 0 0 0 0 2 (-5) 0 0 (-1) (-128) (-214) 1,
  p 5 0 0 2 1 0 0 0 0 2 10 (-10) 0,
  p 8 0 0 1 0 (-5) 0 0 0 (-2) 0 (-20) 0,
  p 5 0 0 1 0 (-2) 0 0 0 (-2) 0 20 0,
  p 10 0 0 1 0 (-2) 5 0 0 2 20 0 0,
  p 3 0 0 1 0 (-1) 0 0 0 (-1) 20 0 0,
  p 2 0 0 1 0 0 0 0 0 (-1) 0 20 0,
  p 3 0 0 1 0 1 0 0 0 1 20 0 0,
  p 11 0 0 2 (-7) 0 0 0 0 (-2) 20 0 0,
  p 7 0 0 2 (-4) 0 0 0 0 1 0 (-20) 0,
  p 9 0 0 2 0 (-5) 0 0 0 (-2) 0 (-20) 0,
  p 5 0 0 2 0 0 (-2) 0 0 1 20 0 0,
  p 16 0 0 3 (-8) 3 0 0 0 (-2) 0 20 0,
  p 5 0 0 3 0 0 0 0 0 2 20 0 0,
  p 20 0 0 4 (-8) 1 5 0 0 2 20 0 0,
  p 16 0 0 4 (-8) 3 0 0 0 (-1) 0 20 0,
  p 16 0 0 4 (-8) 3 0 0 0 1 0 (-20) 0,
  p 12 0 0 4 (-7) 0 0 0 0 (-1) 0 (-20) 0,
  p 12 0 0 4 (-6) 0 0 0 0 (-2) 0 (-20) 0,
  p 10 0 0 4 0 (-4) 0 0 0 2 0 20 0,
  p 17 0 0 5 (-10) 0 0 0 0 (-2) 20 0 0,
  p 13 0 0 5 (-6) 0 0 0 0 2 (-20) 0 0,
  p 18 0 0 7 (-9) 0 0 0 0 2 (-20) 0 0,
  p 17 0 0 7 (-8) 0 0 0 0 2 (-20) 0 0,
  p 16 0 0 7 (-7) 0 0 0 0 2 (-20) 0 0,
  p 28 0 0 9 (-17) 0 0 0 0 (-2) 0 (-20) 0,
  p 6 0 1 (-4) 0 0 0 0 0 (-1) 0 20 0,
  p 4 0 1 (-2) 0 0 0 0 0 (-1) 0 20 0,
  p 8 0 2 (-5) 0 0 0 0 0 (-1) 0 20 0,
  p 13 0 3 (-8) 0 0 0 0 0 (-2) (-20) 0 0,
  p 9 0 3 (-4) 0 0 0 0 0 (-2) 20 0 0,
  p 8 0 3 (-4) 0 0 0 0 0 1 0 (-20) 0,
  p 11 0 4 (-5) 0 0 0 0 0 (-2) 20 0 0,
  p 10 0 4 (-5) 0 0 0 0 0 (-1) 0 (-20) 0,
  p 6 0 4 (-2) 0 0 0 0 0 0 (-20) 0 0,
  p 12 0 5 (-6) 0 0 0 0 0 (-1) 0 (-20) 0,
  p 11 0 5 (-5) 0 0 0 0 0 1 (-20) 0 0,
  p 13 0 6 (-6) 0 0 0 0 0 1 (-20) 0 0,
  p 11 0 6 (-4) 0 0 0 0 0 1 (-20) 0 0,
  p 19 0 7 (-11) 0 0 0 0 0 (-1) 20 0 0,
  p 18 0 7 (-10) 0 0 0 0 0 (-1) 0 (-20) 0,
  p 22 0 8 (-12) 0 0 0 0 0 (-2) 0 20 0,
  p 10 0 0 2 (-6) 0 0 0 0 (-2) 20 10 0,
  p 9 0 0 3 (-5) 0 0 0 0 (-1) 20 (-10) 0,
  p 15 0 0 5 (-8) 0 0 0 0 (-2) (-10) (-20) 0,
  p 18 0 0 6 (-10) 0 0 0 0 (-2) (-20) (-10) 0,
  p 7 0 1 (-4) 0 0 0 0 0 (-2) 20 (-10) 0,
  p 5 0 1 (-2) 0 0 0 0 0 (-2) 20 10 0,
  p 6 0 2 (-3) 0 0 0 0 0 1 (-10) (-20) 0,
  p 6 0 0 2 2 0 0 0 0 2 20 20 0,
  p 4 0 0 0 0 0 0 0 2 2 0 30 0,
  p 3 0 0 0 0 0 0 2 0 1 30 0 0,
  p 4 0 0 0 0 0 0 2 0 2 0 30 0,
  p 7 0 0 0 0 0 5 0 0 2 0 30 0,
  p 11 0 0 0 0 4 (-5) 0 0 2 0 (-30) 0,
  p 9 0 0 1 (-6) 0 0 0 0 (-2) 30 0 0,
  p 5 0 0 1 0 (-3) 0 0 0 (-1) 30 0 0,
  p 3 0 0 1 0 (-1) 0 0 0 1 30 0 0,
  p 7 0 0 3 0 0 (-2) 0 0 2 (-30) 0 0,
  p 20 0 0 4 (-8) 1 5 0 0 (-2) 30 0 0,
  p 8 0 0 4 0 0 (-2) 0 0 2 0 30 0,
  p 15 0 0 6 (-7) 0 0 0 0 2 (-30) 0 0,
  p 7 0 0 6 0 0 0 0 0 1 30 0 0,
  p 9 0 5 (-3) 0 0 0 0 0 1 (-30) 0 0,
  p 26 0 8 (-16) 0 0 0 0 0 (-2) 0 30 0,
  p 21 0 9 (-11) 0 0 0 0 0 (-1) (-30) 0 0,
  p 6 0 0 2 0 (-2) 0 0 0 2 (-10) 30 0,
  p 13 0 0 6 (-5) 0 0 0 0 2 10 30 0,
  p 17 0 6 (-10) 0 0 0 0 0 (-1) (-30) 10 0,
  p 6 0 0 1 0 3 0 0 0 2 (-30) 20 0,
  p 9 0 0 2 (-5) 0 0 0 0 (-2) 20 30 0,
  p 22 0 0 7 (-13) 0 0 0 0 (-2) (-30) 20 0,
  p 3 0 1 0 0 0 0 0 0 2 30 20 0,
  p 3 0 0 0 0 0 1 0 0 2 40 0 0,
  p 10 0 0 5 (-3) 0 0 0 0 2 0 40 0,
  p 9 0 0 5 (-2) 0 0 0 0 2 (-40) 0 0,
  p 6 0 0 6 0 0 0 0 0 0 0 (-40) 0,
  p 24 0 0 8 (-15) 0 0 0 0 (-1) 40 0 0,
  p 10 0 2 (-6) 0 0 0 0 0 (-2) 0 40 0,
  p 10 0 3 (-6) 0 0 0 0 0 (-1) 0 40 0,
  p 8 0 3 (-4) 0 0 0 0 0 (-1) 0 (-40) 0,
  p 9 0 4 (-3) 0 0 0 0 0 2 40 0 0,
  p 7 0 4 (-2) 0 0 0 0 0 1 (-40) 0 0,
  p 8 0 4 (-2) 0 0 0 0 0 2 0 (-40) 0,
  p 16 0 5 (-9) 0 0 0 0 0 (-2) 0 (-40) 0,
  p 12 0 5 (-5) 0 0 0 0 0 2 0 40 0,
  p 19 0 8 (-10) 0 0 0 0 0 (-1) (-40) 0 0,
  p 17 0 8 (-8) 0 0 0 0 0 (-1) (-40) 0 0,
  p 6 0 0 0 0 4 0 0 0 2 10 40 0,
  p 10 0 0 5 0 (-3) 0 0 0 2 10 40 0,
  p 17 0 5 (-10) 0 0 0 0 0 (-2) (-40) 10 0,
  p 13 0 5 (-6) 0 0 0 0 0 2 40 (-10) 0,
  p 22 0 8 (-13) 0 0 0 0 0 1 30 30 0,
  p 4 0 0 0 0 0 3 0 0 1 (-20) (-40) 0,
  p 8 0 0 1 (-5) 0 0 0 0 (-2) 40 20 0,
  p 14 0 0 6 (-6) 0 0 0 0 2 (-40) (-20) 0,
  p 8 0 0 6 0 0 0 0 0 2 40 (-20) 0]

private def xyPln_10 : List Pln := [
  p 7 1 0 (-4) 0 0 0 0 0 (-2) (-40) 20 0,
  p 6 0 0 1 (-3) 0 0 0 0 (-2) 0 50 0,
  p 19 0 0 6 (-11) 0 0 0 0 (-2) (-50) 0 0,
  p 9 0 4 (-4) 0 0 0 0 0 1 (-50) 0 0,
  p 16 0 6 (-9) 0 0 0 0 0 (-1) 0 (-50) 0,
  p 23 0 9 (-12) 0 0 0 0 0 (-2) 50 0 0,
  p 14 0 0 4 (-8) 0 0 0 0 (-2) 40 30 0,
  p 10 0 0 3 (-6) 0 0 0 0 (-1) (-10) 50 0,
  p 9 0 0 5 0 (-2) 0 0 0 2 50 (-10) 0,
  p 4 0 1 (-2) 0 0 0 0 0 1 10 50 0,
  p 10 0 4 (-4) 0 0 0 0 0 2 (-10) (-50) 0,
  p 15 0 7 (-7) 0 0 0 0 0 (-1) (-50) (-10) 0,
  p 6 0 0 3 0 1 0 0 0 2 (-50) 20 0,
  p 12 0 0 3 0 2 (-5) 0 0 2 50 (-20) 0,
  p 23 0 0 6 (-15) 0 0 0 0 (-2) (-20) (-50) 0,
  p 13 0 0 11 0 0 0 0 0 2 20 50 0,
  p 7 0 2 (-3) 0 0 0 0 0 (-2) 50 (-20) 0,
  p 19 0 9 (-9) 0 0 0 0 0 (-1) (-20) (-50) 0,
  p 11 0 0 2 0 (-2) 5 0 0 2 (-30) (-50) 0,
  p 11 0 0 2 0 2 (-5) 0 0 2 (-30) 50 0,
  p 16 0 0 5 (-9) 0 0 0 0 (-2) (-50) (-30) 0,
  p 12 0 0 5 (-5) 0 0 0 0 2 (-50) (-30) 0,
  p 9 0 3 (-5) 0 0 0 0 0 1 (-50) 30 0,
  p 4 0 0 1 0 0 1 0 0 2 0 60 0,
  p 4 0 0 1 1 0 0 0 0 2 0 60 0,
  p 7 0 3 (-3) 0 0 0 0 0 1 60 (-10) 0,
  p 5 0 3 (-1) 0 0 0 0 0 1 (-60) (-10) 0,
  p 12 0 4 (-7) 0 0 0 0 0 (-1) 20 60 0,
  p 17 0 7 (-9) 0 0 0 0 0 (-1) (-60) 20 0,
  p 8 0 0 3 0 (-3) 0 0 0 2 (-50) (-40) 0,
  p 25 0 0 8 (-15) 0 0 0 0 (-2) (-30) 60 0,
  p 5 0 0 0 0 0 3 0 0 2 70 0 0,
  p 8 0 0 2 0 (-4) 0 0 0 (-2) 0 (-70) 0,
  p 10 0 0 3 (-5) 0 0 0 0 (-2) 0 (-70) 0,
  p 5 0 2 (-2) 0 0 0 0 0 1 (-70) 10 0,
  p 20 0 7 (-11) 0 0 0 0 0 (-2) 10 70 0,
  p 18 0 3 (-9) 4 0 0 0 0 (-2) (-40) (-60) 0,
  p 14 0 3 (-5) 4 0 0 0 0 2 40 60 0,
  p 5 0 1 2 0 0 0 0 0 2 70 (-20) 0,
  p 13 0 6 (-6) 0 0 0 0 0 (-1) (-70) (-20) 0,
  p 3 0 0 0 0 0 0 0 2 1 60 (-50) 0,
  p 5 0 0 2 0 0 1 0 0 2 (-80) 0 0,
  p 6 0 0 3 (-1) 0 0 0 0 2 0 (-80) 0,
  p 13 0 0 4 (-7) 0 0 0 0 (-2) (-40) (-70) 0,
  p 3 0 2 0 0 0 0 0 0 1 (-80) (-20) 0,
  p 5 0 0 0 3 0 0 0 0 2 (-40) 80 0,
  p 7 0 0 1 (-4) 0 0 0 0 (-2) 40 80 0,
  p 5 0 0 2 0 0 (-1) 0 0 2 (-90) 0 0,
  p 11 0 5 (-5) 0 0 0 0 0 (-1) (-90) (-20) 0,
  p 19 0 7 (-10) 0 0 0 0 0 (-2) 100 0 0,
  p 4 0 2 1 0 0 0 0 0 1 20 (-100) 0,
  p 5 0 2 1 0 0 0 0 0 2 (-100) 20 0,
  p 15 0 6 (-8) 0 0 0 0 0 (-1) (-100) 20 0,
  p 20 0 0 7 (-8) 3 0 0 0 2 0 110 0,
  p 5 0 0 2 0 (-2) 0 0 0 1 110 20 0,
  p 18 0 6 (-10) 0 0 0 0 0 (-2) (-20) (-110) 0,
  p 14 0 0 1 (-8) 3 0 0 0 (-2) (-50) 100 0,
  p 11 0 0 3 (-6) 0 0 0 0 (-2) 60 100 0,
  p 11 0 3 (-6) 0 0 0 0 0 (-2) 120 0 0,
  p 3 0 1 1 0 0 0 0 0 1 (-120) (-30) 0,
  p 9 0 0 4 (-3) 0 0 0 0 2 (-60) (-110) 0,
  p 4 0 0 0 0 3 0 0 0 1 120 (-40) 0,
  p 6 0 0 3 0 0 (-1) 0 0 2 0 (-130) 0,
  p 6 0 3 (-1) 0 0 0 0 0 2 0 (-130) 0,
  p 7 0 0 2 (-4) 0 0 0 0 (-1) (-110) 70 0,
  p 7 0 0 1 0 (-4) 0 0 0 (-2) 20 (-130) 0,
  p 4 0 0 1 (-2) 0 0 0 0 1 30 (-130) 0,
  p 9 0 4 (-4) 0 0 0 0 0 (-1) (-130) (-30) 0,
  p 7 0 0 4 0 (-1) 0 0 0 2 (-140) 10 0,
  p 9 0 0 0 0 2 (-5) 0 0 (-2) 110 (-90) 0,
  p 22 0 9 (-11) 0 0 0 0 0 (-2) 0 (-150) 0,
  p 10 0 0 4 (-4) 0 0 0 0 2 (-130) (-80) 0,
  p 11 0 0 5 (-4) 0 0 0 0 2 (-80) (-130) 0,
  p 3 0 0 2 0 0 0 0 0 1 (-150) (-40) 0,
  p 6 0 2 (-3) 0 0 0 0 0 (-1) 20 (-160) 0,
  p 9 0 0 4 0 (-3) 0 0 0 2 (-30) 160 0,
  p 5 0 1 (-3) 0 0 0 0 0 (-1) 160 (-40) 0,
  p 6 0 0 0 4 0 0 0 0 2 (-140) 90 0,
  p 3 0 1 (-1) 0 0 0 0 0 1 (-170) 40 0,
  p 7 0 3 (-3) 0 0 0 0 0 (-1) (-180) (-40) 0,
  p 2 0 0 0 0 0 1 0 0 (-1) 80 170 0,
  p 13 0 5 (-7) 0 0 0 0 0 (-1) (-190) 50 0,
  p 33 0 0 6 (-16) 4 5 0 0 (-2) 190 (-60) 0,
  p 17 0 6 (-9) 0 0 0 0 0 (-2) 200 0 0,
  p 8 0 0 2 (-4) 0 0 0 0 (-2) 0 220 0,
  p 20 0 8 (-10) 0 0 0 0 0 (-2) (-10) (-220) 0,
  p 8 0 3 (-3) 0 0 0 0 0 2 (-70) (-240) 0,
  p 3 0 0 0 0 1 0 0 0 2 100 (-230) 0,
  p 4 0 0 1 (-2) 0 0 0 0 (-1) (-250) (-30) 0,
  p 2 0 0 0 0 0 1 0 0 1 40 (-250) 0,
  p 5 0 0 1 0 2 0 0 0 2 (-210) 150 0,
  p 9 0 3 (-5) 0 0 0 0 0 (-1) 260 (-70) 0,
  p 2 0 0 0 0 1 0 0 0 (-1) (-280) 70 0,
  p 12 0 3 (-7) 0 0 0 0 0 (-2) 70 280 0,
  p 13 0 4 (-7) 0 0 0 0 0 (-2) (-290) (-10) 0,
  p 2 0 0 0 0 1 0 0 0 1 290 (-30) 0,
  p 5 0 2 (-2) 0 0 0 0 0 (-1) (-290) (-60) 0,
  p 4 0 0 0 2 0 0 0 0 2 0 320 0,
  p 18 0 7 (-9) 0 0 0 0 0 (-2) 0 (-320) 0,
  p 7 0 2 (-4) 0 0 0 0 0 (-1) 310 (-80) 0,
  p 2 0 0 2 0 0 0 0 0 0 0 (-350) 0,
  p 4 0 0 2 0 0 0 0 0 2 0 380 0,
  p 7 0 0 3 (-2) 0 0 0 0 2 (-310) (-350) 0,
  p 14 0 5 (-8) 0 0 0 0 0 (-1) (-90) (-470) 0,
  p 5 0 0 1 2 0 0 0 0 2 (-310) 370 0,
  p 7 0 0 3 0 (-2) 0 0 0 2 (-390) (-290) 0,
  p 6 0 1 (-3) 0 0 0 0 0 (-2) 0 (-490) 0,
  p 9 0 2 (-5) 0 0 0 0 0 (-2) 490 0 0,
  p 25 0 8 (-15) 0 0 0 0 0 (-2) 420 (-270) 0,
  p 7 0 3 (-2) 0 0 0 0 0 2 (-500) 0 0,
  p 16 0 6 (-8) 0 0 0 0 0 (-2) 0 (-510) 0,
  p 6 0 0 1 0 (-3) 0 0 0 (-2) 0 (-520) 0,
  p 35 0 0 8 (-16) 4 5 0 0 2 0 (-540) 0,
  p 5 0 0 0 0 3 0 0 0 2 90 550 0,
  p 21 0 8 (-11) 0 0 0 0 0 (-2) 490 270 0,
  p 4 0 0 0 0 0 2 0 0 2 0 570 0,
  p 11 0 4 (-6) 0 0 0 0 0 (-1) (-560) 140 0,
  p 35 0 0 8 (-16) 4 5 0 0 (-2) 420 (-400) 0,
  p 3 0 1 (-1) 0 0 0 0 0 (-1) (-570) (-130) 0,
  p 8 0 0 4 (-2) 0 0 0 0 2 (-10) (-620) 0,
  p 3 0 0 0 0 0 2 0 0 1 610 (-270) 0,
  p 5 0 0 2 0 (-1) 0 0 0 2 (-130) 670 0,
  p 5 0 0 2 0 1 0 0 0 2 (-50) (-720) 0,
  p 5 0 2 (-1) 0 0 0 0 0 2 (-750) (-20) 0,
  p 23 0 8 (-13) 0 0 0 0 0 (-2) (-760) 170 0,
  p 8 0 0 4 0 (-2) 0 0 0 2 (-10) 800 0,
  p 14 0 5 (-7) 0 0 0 0 0 (-2) 0 (-870) 0,
  p 15 0 5 (-8) 0 0 0 0 0 (-2) 1130 50 0,
  p 4 0 0 1 0 1 0 0 0 2 0 1140 0,
  p 8 0 0 0 0 2 (-5) 0 0 1 1170 80 0,
  p 4 0 1 1 0 0 0 0 0 2 0 1470 0,
  p 3 0 0 0 0 2 0 0 0 1 1450 (-270) 0,
  p 4 0 2 0 0 0 0 0 0 2 0 (-1600) 0,
  p 19 0 0 6 (-8) 3 0 0 0 2 (-1800) (-530) 0,
  p 8 0 2 (-4) 0 0 0 0 0 (-2) 0 1980 0,
  p 6 0 0 3 0 (-1) 0 0 0 2 70 (-2010) 0,
  p 15 0 0 2 (-8) 3 0 0 0 (-2) 1990 590 0,
  p 12 0 4 (-6) 0 0 0 0 0 (-2) 0 (-2130) 0,
  p 22 0 8 (-13) 0 0 0 0 0 (-1) 1330 2690 0,
  p 4 0 0 0 0 2 0 0 0 2 0 5050 0,
  p 10 0 3 (-5) 0 0 0 0 0 (-2) 0 8950 0,
  p 8 0 0 0 0 2 (-5) 0 0 (-1) 12860 (-7710) 0,
  p 0 0 0 0 0 0 0 0 0 0 40 (-123) 1,
  p 4 0 0 (-2) 2 0 0 0 0 0 20 0 0,
  p 7 0 0 (-3) 4 0 0 0 0 0 64 32 0,
  p 2 0 0 (-1) 0 1 0 0 0 0 211 0 0,
  p 7 0 (-3) 4 0 0 0 0 0 0 0 521 0,
  p 0 0 0 0 0 0 0 0 0 0 (-16015) (-1404) 0,
  p 7 0 (-3) 4 0 0 0 0 0 0 0 (-12) 1,
  p 0 0 0 0 0 0 0 0 0 0 358 31 1,
  p 0 0 0 0 0 0 0 0 0 0 1390 (-5530) 0,
  p 0 0 0 0 0 0 0 0 0 0 (-8) 9 1,
  p 0 0 0 0 0 0 0 0 0 0 16134 20 0,
  p 0 0 0 0 0 0 0 0 0 0 (-361) 0 1,
  p 0 0 0 0 0 0 0 0 0 0 20 403 0,
  p 0 0 0 0 0 0 0 0 0 0 375 4 1,
  p 0 0 0 0 0 0 0 0 0 0 0 (-7908) 0,
  p 0 0 0 0 0 0 0 0 0 0 0 177 1,
  p 0 0 0 0 0 0 0 0 0 0 16790 0 0,
  p 0 0 0 0 0 0 0 0 0 0 8 (-4) 1,
  p 0 0 0 0 0 0 0 0 0 0 (-16826) 20 0,
  p 0 0 0 0 0 0 0 0 0 0 376 0 1,
  p 0 0 0 0 0 0 0 0 0 0 (-20) (-200) 0,
  p 0 0 0 0 0 0 0 0 0 0 9 (-18) 1,
  p 0 0 0 0 0 0 0 0 0 0 (-17295) (-40) 0,
  p 0 0 0 0 0 0 0 0 0 0 387 1 1,
  p 0 0 0 0 0 0 0 0 0 0 (-20) (-811) 0,
  p 0 0 0 0 0 0 0 0 0 0 (-9) (-9) 1,
  p 0 0 0 0 0 0 0 0 0 0 18795 (-24) 0,
  p 0 0 0 0 0 0 0 0 0 0 (-420) 1 1,
  p 0 0 0 0 0 0 0 0 0 0 30 (-411) 0,
  p 0 0 0 0 0 0 0 0 0 0 (-7) (-427) 1,
  p 0 0 0 0 0 0 0 0 0 0 14216 20 0,
  p 0 0 0 0 0 0 0 0 0 0 (-318) 0 1,
  p 0 0 0 0 0 0 0 0 0 0 10 (-19079) 0,
  p 5 0 0 (-2) 0 3 0 0 0 0 (-2) (-11) 1,
  p 0 0 0 0 0 0 0 0 0 0 (-8) (-493) 1,
  p 11 0 0 (-5) 6 0 0 0 0 0 12 0 0,
  p 14 0 0 (-6) 8 0 0 0 0 0 12 20 0,
  p 6 0 (-3) 3 0 0 0 0 0 0 64 0 0,
  p 14 0 (-6) 8 0 0 0 0 0 0 (-68) (-16) 0,
  p 4 0 0 (-2) 0 2 0 0 0 0 215 0 0,
  p 5 0 0 (-2) 0 3 0 0 0 0 354 (-64) 0,
  p 0 0 0 0 0 0 0 0 0 0 16179 24 0,
  p 0 0 0 0 0 0 0 0 0 0 (-362) 0 1,
  p 11 0 0 (-5) 6 0 0 0 0 0 0 (-20) 0,
  p 14 0 0 (-6) 8 0 0 0 0 0 30 (-20) 0,
  p 6 0 (-3) 3 0 0 0 0 0 0 0 (-90) 0,
  p 14 0 (-6) 8 0 0 0 0 0 0 (-20) 90 0,
  p 4 0 0 (-2) 0 2 0 0 0 0 0 (-290) 0,
  p 5 0 0 (-2) 0 3 0 0 0 0 (-90) (-480) 0,
  p 0 0 0 0 0 0 0 0 0 0 10 (-22067) 0,
  p 0 0 0 0 0 0 0 0 0 0 (-13) (-45) 1,
  p 0 0 0 0 0 0 0 0 0 0 26154 (-95) 0,
  p 0 0 0 0 0 0 0 0 0 0 (-585) 2 1,
  p 0 0 0 0 0 0 0 0 0 0 20 (-1994) 0,
  p 0 0 0 0 0 0 0 0 0 0 14 602 1,
  p 1 0 0 1 0 0 0 0 0 0 16 0 0,
  p 0 0 0 0 0 0 0 0 0 0 (-21282) 84 0,
  p 0 0 0 0 0 0 0 0 0 0 476 (-2) 1]

private def xyPln_11 : List Pln := [
  p 1 0 0 1 0 0 0 0 0 0 (-10) (-20) 0,
  p 0 0 0 0 0 0 0 0 0 0 120 26945 0,
  p 0 0 0 0 0 0 0 0 0 0 35 608 1,
  p 0 0 0 0 0 0 0 0 0 0 19664 (-84) 0,
  p 0 0 0 0 0 0 0 0 0 0 (-440) 2 1,
  p 0 0 0 0 0 0 0 0 0 0 90 27205 0,
  p 0 0 0 0 0 0 0 0 0 0 34 609 1,
  p 0 0 0 0 0 0 0 0 0 0 18895 (-12) 0,
  p 0 0 0 0 0 0 0 0 0 0 (-422) 0 1,
  p 0 0 0 0 0 0 0 0 0 0 30 27222 0,
  p 0 0 0 0 0 0 0 0 0 0 (-14) (-619) 1,
  p 5 0 0 (-2) 0 3 0 0 0 0 12 0 0,
  p 0 0 0 0 0 0 0 0 0 0 25630 (-28) 0,
  p 0 0 0 0 0 0 0 0 0 0 (-573) 1 1,
  p 0 0 0 0 0 0 0 0 0 0 (-40) (-27681) 0,
  p 0 0 0 0 0 0 0 0 0 0 14 (-11) 1,
  p 0 0 0 0 0 0 0 0 0 0 (-29237) (-32) 0,
  p 0 0 0 0 0 0 0 0 0 0 654 1 1,
  p 0 0 0 0 0 0 0 0 0 0 (-40) (-510) 0,
  p 4 0 0 (-2) 0 2 0 0 0 0 1 (-34) 1,
  p 0 0 0 0 0 0 0 0 0 0 33 680 1,
  p 6 0 0 (-2) 0 3 (-1) 0 0 0 (-12) 0 0,
  p 14 0 0 (-6) 8 0 0 0 0 0 0 12 0,
  p 11 0 0 (-2) 0 4 (-5) 0 0 0 20 0 0,
  p 6 0 (-3) 3 0 0 0 0 0 0 20 0 0,
  p 11 0 0 (-5) 6 0 0 0 0 0 24 16 0,
  p 14 0 (-6) 8 0 0 0 0 0 0 (-44) (-12) 0,
  p 7 0 0 (-2) 0 0 5 0 0 0 (-48) 0 0,
  p 5 0 0 (-2) 0 3 0 0 0 0 211 (-36) 0,
  p 4 0 0 (-2) 0 2 0 0 0 0 (-1130) 0 0,
  p 0 0 0 0 0 0 0 0 0 0 22978 (-60) 0,
  p 4 0 0 (-2) 0 2 0 0 0 0 25 0 1,
  p 0 0 0 0 0 0 0 0 0 0 (-514) 1 1,
  p 6 0 0 (-2) 0 3 (-1) 0 0 0 0 (-20) 0,
  p 14 0 0 (-6) 8 0 0 0 0 0 (-20) 10 0,
  p 11 0 0 (-2) 0 4 (-5) 0 0 0 0 30 0,
  p 6 0 (-3) 3 0 0 0 0 0 0 0 30 0,
  p 11 0 0 (-5) 6 0 0 0 0 0 (-20) 30 0,
  p 7 0 0 (-2) 0 0 5 0 0 0 0 (-60) 0,
  p 14 0 (-6) 8 0 0 0 0 0 0 10 (-60) 0,
  p 5 0 0 (-2) 0 3 0 0 0 0 50 280 0,
  p 4 0 0 (-2) 0 2 0 0 0 0 0 (-1510) 0,
  p 0 0 0 0 0 0 0 0 0 0 50 30417 0,
  p 0 0 0 0 0 0 0 0 0 0 27 (-681) 1,
  p 0 0 0 0 0 0 0 0 0 0 23072 8 0,
  p 0 0 0 0 0 0 0 0 0 0 (-516) 0 1,
  p 0 0 0 0 0 0 0 0 0 0 (-10) (-30446) 0,
  p 0 0 0 0 0 0 0 0 0 0 (-99) 687 1,
  p 0 0 0 0 0 0 0 0 0 0 28409 32 0,
  p 0 0 0 0 0 0 0 0 0 0 (-635) (-1) 1,
  p 0 0 0 0 0 0 0 0 0 0 (-40) 30703 0,
  p 16 0 0 (-5) 8 (-3) 0 0 0 0 0 (-12) 1,
  p 14 0 0 3 (-8) 3 0 0 0 0 0 14 1,
  p 3 0 0 (-1) 0 0 2 0 0 0 (-13) 6 1,
  p 12 0 (-5) 7 0 0 0 0 0 0 3 (-17) 1,
  p 3 0 0 (-1) 0 2 0 0 0 0 (-17) 3 1,
  p 2 0 0 (-1) 0 0 (-1) 0 0 0 10 (-21) 1,
  p 2 0 0 (-1) 0 (-1) 0 0 0 0 23 6 1,
  p 2 0 0 0 (-2) 0 0 0 0 0 9 (-33) 1,
  p 8 0 0 (-1) 0 2 (-5) 0 0 0 (-58) (-3) 1,
  p 20 0 (-8) 12 0 0 0 0 0 0 69 (-145) 1,
  p 8 0 0 (-1) 0 (-2) 5 0 0 0 618 358 1,
  p 10 0 (-4) 6 0 0 0 0 0 0 12 0 0,
  p 3 0 (-1) 2 0 0 0 0 0 0 0 12 0,
  p 5 0 0 (-1) 0 1 (-3) 0 0 0 0 12 0,
  p 5 0 0 1 (-4) 0 0 0 0 0 12 0 0,
  p 11 0 (-5) 6 0 0 0 0 0 0 0 16 0,
  p 10 0 0 (-4) 6 0 0 0 0 0 16 0 0,
  p 2 0 0 (-1) 0 0 0 (-1) 0 0 0 16 0,
  p 4 0 1 (-3) 0 0 0 0 0 0 (-16) 0 0,
  p 3 0 (-2) 1 0 0 0 0 0 0 0 20 0,
  p 3 0 1 (-2) 0 0 0 0 0 0 0 20 0,
  p 3 0 0 (-1) 0 0 (-2) 0 0 0 12 (-16) 0,
  p 7 0 0 (-1) 0 (-2) 4 0 0 0 20 12 0,
  p 4 0 0 (-1) 0 (-1) 2 0 0 0 0 (-32) 0,
  p 3 0 0 (-1) 0 0 0 2 0 0 0 (-32) 0,
  p 4 0 0 (-1) 0 0 3 0 0 0 (-32) 16 0,
  p 1 0 0 1 0 0 0 0 0 0 0 (-36) 0,
  p 5 0 (-2) 3 0 0 0 0 0 0 0 36 0,
  p 4 0 0 (-1) 0 3 0 0 0 0 (-12) (-36) 0,
  p 9 0 2 (-4) 0 (-3) 0 0 0 0 0 (-52) 0,
  p 3 0 0 (-1) 0 (-1) 1 0 0 0 0 56 0,
  p 7 0 0 (-3) 4 0 0 0 0 0 36 (-52) 0,
  p 22 0 8 (-14) 0 0 0 0 0 0 44 (-48) 0,
  p 9 0 3 (-6) 0 0 0 0 0 0 (-36) (-56) 0,
  p 4 0 (-2) 2 0 0 0 0 0 0 72 0 0,
  p 24 0 0 (-9) 15 0 0 0 0 0 0 76 0,
  p 1 0 (-1) 0 0 0 0 0 0 0 20 84 0,
  p 3 0 0 (-1) 0 0 0 0 2 0 (-68) (-76) 0,
  p 15 0 0 (-1) 0 (-4) 10 0 0 0 36 (-107) 0,
  p 9 0 (-4) 5 0 0 0 0 0 0 (-28) 111 0,
  p 7 0 (-3) 4 0 0 0 0 0 0 (-40) 159 0,
  p 2 0 0 (-1) 0 1 0 0 0 0 (-24) (-187) 0,
  p 4 0 0 (-2) 2 0 0 0 0 0 (-32) (-187) 0,
  p 2 0 0 (-1) 0 0 1 0 0 0 (-263) (-48) 0,
  p 16 0 0 (-5) 8 (-3) 0 0 0 0 394 0 0,
  p 14 0 0 3 (-8) 3 0 0 0 0 (-453) 0 0,
  p 3 0 0 (-1) 0 0 2 0 0 0 (-191) (-438) 0,
  p 12 0 (-5) 7 0 0 0 0 0 0 557 107 0,
  p 3 0 0 (-1) 0 2 0 0 0 0 (-107) (-569) 0,
  p 2 0 0 (-1) 0 0 (-1) 0 0 0 692 334 0,
  p 2 0 0 (-1) 0 (-1) 0 0 0 0 (-199) 772 0,
  p 2 0 0 0 (-2) 0 0 0 0 0 1086 318 0,
  p 8 0 0 (-1) 0 2 (-5) 0 0 0 123 (-1913) 0,
  p 20 0 (-8) 12 0 0 0 0 0 0 4773 2379 0,
  p 8 0 0 (-1) 0 (-2) 5 0 0 0 (-12267) 20378 0,
  p 8 0 0 (-1) 0 (-2) 5 0 0 0 (-7) (-4) 2,
  p 14 0 0 3 (-8) 3 0 0 0 0 10 0 1,
  p 3 0 0 (-1) 0 0 2 0 0 0 4 10 1,
  p 12 0 (-5) 7 0 0 0 0 0 0 (-12) (-2) 1,
  p 3 0 0 (-1) 0 2 0 0 0 0 2 13 1,
  p 2 0 0 (-1) 0 0 (-1) 0 0 0 (-15) (-7) 1,
  p 2 0 0 (-1) 0 (-1) 0 0 0 0 4 (-17) 1,
  p 2 0 0 0 (-2) 0 0 0 0 0 (-24) (-7) 1,
  p 8 0 0 (-1) 0 2 (-5) 0 0 0 (-3) 43 1,
  p 20 0 (-8) 12 0 0 0 0 0 0 (-107) (-53) 1,
  p 8 0 0 (-1) 0 (-2) 5 0 0 0 274 (-456) 1,
  p 11 0 (-5) 6 0 0 0 0 0 0 20 0 0,
  p 10 0 0 (-4) 6 0 0 0 0 0 0 (-20) 0,
  p 2 0 0 (-1) 0 0 0 (-1) 0 0 20 0 0,
  p 5 0 0 (-1) 0 1 (-3) 0 0 0 20 0 0,
  p 5 0 0 1 (-4) 0 0 0 0 0 0 (-20) 0,
  p 4 0 1 (-3) 0 0 0 0 0 0 0 20 0,
  p 7 0 0 (-1) 0 (-2) 4 0 0 0 20 (-20) 0,
  p 3 0 0 (-1) 0 0 (-2) 0 0 0 (-20) (-20) 0,
  p 3 0 (-2) 1 0 0 0 0 0 0 30 0 0,
  p 3 0 1 (-2) 0 0 0 0 0 0 30 0 0,
  p 4 0 0 (-1) 0 (-1) 2 0 0 0 (-40) 0 0,
  p 3 0 0 (-1) 0 0 0 2 0 0 (-40) (-10) 0,
  p 4 0 0 (-1) 0 0 3 0 0 0 20 40 0,
  p 1 0 0 1 0 0 0 0 0 0 (-50) 0 0,
  p 5 0 (-2) 3 0 0 0 0 0 0 50 10 0,
  p 4 0 0 (-1) 0 3 0 0 0 0 (-50) 20 0,
  p 9 0 2 (-4) 0 (-3) 0 0 0 0 (-70) 0 0,
  p 3 0 0 (-1) 0 (-1) 1 0 0 0 70 0 0,
  p 7 0 0 (-3) 4 0 0 0 0 0 (-70) (-50) 0,
  p 4 0 (-2) 2 0 0 0 0 0 0 0 (-90) 0,
  p 22 0 8 (-14) 0 0 0 0 0 0 (-70) (-60) 0,
  p 9 0 3 (-6) 0 0 0 0 0 0 (-80) 50 0,
  p 24 0 0 (-9) 15 0 0 0 0 0 100 0 0,
  p 1 0 (-1) 0 0 0 0 0 0 0 110 (-30) 0,
  p 3 0 0 (-1) 0 0 0 0 2 0 (-100) 90 0,
  p 15 0 0 (-1) 0 (-4) 10 0 0 0 (-140) (-50) 0,
  p 9 0 (-4) 5 0 0 0 0 0 0 150 40 0,
  p 7 0 (-3) 4 0 0 0 0 0 0 210 50 0,
  p 2 0 0 (-1) 0 1 0 0 0 0 (-250) 30 0,
  p 4 0 0 (-2) 2 0 0 0 0 0 (-250) 40 0,
  p 2 0 0 (-1) 0 0 1 0 0 0 (-60) 350 0,
  p 16 0 0 (-5) 8 (-3) 0 0 0 0 0 (-530) 0,
  p 14 0 0 3 (-8) 3 0 0 0 0 0 610 0,
  p 3 0 0 (-1) 0 0 2 0 0 0 (-590) 260 0,
  p 12 0 (-5) 7 0 0 0 0 0 0 140 (-750) 0,
  p 3 0 0 (-1) 0 2 0 0 0 0 (-770) 140 0,
  p 2 0 0 (-1) 0 0 (-1) 0 0 0 450 (-930) 0,
  p 2 0 0 (-1) 0 (-1) 0 0 0 0 1030 270 0,
  p 2 0 0 0 (-2) 0 0 0 0 0 430 (-1460) 0,
  p 8 0 0 (-1) 0 2 (-5) 0 0 0 (-2570) (-170) 0,
  p 20 0 (-8) 12 0 0 0 0 0 0 3190 (-6410) 0,
  p 8 0 0 (-1) 0 (-2) 5 0 0 0 27350 16470 0,
  p 0 0 0 0 0 0 0 0 0 0 (-101) (-727) 1,
  p 0 0 0 0 0 0 0 0 0 0 30099 (-44) 0,
  p 0 0 0 0 0 0 0 0 0 0 2 8 2,
  p 0 0 0 0 0 0 0 0 0 0 (-673) 1 1,
  p 0 0 0 0 0 0 0 0 0 0 (-50) (-32503) 0,
  p 0 0 0 0 0 0 0 0 0 0 20 730 1,
  p 0 0 0 0 0 0 0 0 0 0 (-30578) 175 0,
  p 0 0 0 0 0 0 0 0 0 0 684 (-4) 1,
  p 0 0 0 0 0 0 0 0 0 0 190 32660 0,
  p 0 0 0 0 0 0 0 0 0 0 (-30) 731 1,
  p 0 0 0 0 0 0 0 0 0 0 (-25054) 8 0,
  p 0 0 0 0 0 0 0 0 0 0 560 0 1,
  p 0 0 0 0 0 0 0 0 0 0 40 32711 0,
  p 0 0 0 0 0 0 0 0 0 0 (-27) 749 1,
  p 0 0 0 0 0 0 0 0 0 0 (-26402) 99 0,
  p 0 0 0 0 0 0 0 0 0 0 590 (-2) 1,
  p 0 0 0 0 0 0 0 0 0 0 140 33524 0,
  p 0 0 0 0 0 0 0 0 0 0 (-13) 0 2,
  p 0 0 0 0 0 0 0 0 0 0 (-24) 24 1,
  p 0 0 0 0 0 0 0 0 0 0 43851 (-56) 0,
  p 0 0 0 0 0 0 0 0 0 0 (-981) 1 1,
  p 0 0 0 0 0 0 0 0 0 0 (-20) 1047 0,
  p 0 0 0 0 0 0 0 0 0 0 (-12) 0 2,
  p 0 0 0 0 0 0 0 0 0 0 (-25) 1167 1,
  p 0 0 0 0 0 0 0 0 0 0 40591 99 0,
  p 0 0 0 0 0 0 0 0 0 0 0 (-13) 2,
  p 0 0 0 0 0 0 0 0 0 0 (-908) (-2) 1,
  p 0 0 0 0 0 0 0 0 0 0 (-150) 52211 0,
  p 0 0 0 0 0 0 0 0 0 0 (-15) 0 2,
  p 0 0 0 0 0 0 0 0 0 0 (-77) 1440 1,
  p 0 0 0 0 0 0 0 0 0 0 50665 254 0,
  p 0 0 0 0 0 0 0 0 0 0 1 (-16) 2,
  p 0 0 0 0 0 0 0 0 0 0 (-1133) (-6) 1,
  p 0 0 0 0 0 0 0 0 0 0 (-262) 64375 0,
  p 0 0 0 0 0 0 0 0 0 0 (-20) 0 2,
  p 0 0 0 0 0 0 0 0 0 0 (-371) 38 1,
  p 0 0 0 0 0 0 0 0 0 0 66457 (-40) 0,
  p 0 0 0 0 0 0 0 0 0 0 (-1486) (-9) 1,
  p 0 0 0 0 0 0 0 0 0 0 100 1681 0,
  p 0 0 0 0 0 0 0 0 0 0 19 (-9) 2,
  p 0 0 0 0 0 0 0 0 0 0 318 1532 1]

private def xyPln_12 : List Pln := [
  p 0 0 0 0 0 0 0 0 0 0 (-62824) (-64) 0,
  p 0 0 0 0 0 0 0 0 0 0 (-7) (-17) 2,
  p 0 0 0 0 0 0 0 0 0 0 1405 (-419) 1,
  p 0 0 0 0 0 0 0 0 0 0 (-50) 68499 0,
  p 0 0 0 0 0 0 0 0 0 0 15 1 2,
  p 0 0 0 0 0 0 0 0 0 0 (-16) 1555 1,
  p 4 0 0 (-2) 0 2 0 0 0 0 12 0 0,
  p 0 0 0 0 0 0 0 0 0 0 (-51237) (-147) 0,
  p 0 0 0 0 0 0 0 0 0 0 1 (-17) 2,
  p 0 0 0 0 0 0 0 0 0 0 1146 3 1,
  p 4 0 0 (-2) 0 2 0 0 0 0 0 (-20) 0,
  p 0 0 0 0 0 0 0 0 0 0 (-140) 69554 0,
  p 0 0 0 0 0 0 0 0 0 0 18 (-1) 2,
  p 0 0 0 0 0 0 0 0 0 0 (-8) (-1790) 1,
  p 4 0 0 (-2) 0 2 0 0 0 0 12 0 0,
  p 0 0 0 0 0 0 0 0 0 0 (-60352) 44 0,
  p 0 0 0 0 0 0 0 0 0 0 1 20 2,
  p 0 0 0 0 0 0 0 0 0 0 1349 (-1) 1,
  p 4 0 0 (-2) 0 2 0 0 0 0 0 20 0,
  p 0 0 0 0 0 0 0 0 0 0 10 (-80034) 0,
  p 0 0 0 0 0 0 0 0 0 0 17 0 2,
  p 0 0 0 0 0 0 0 0 0 0 (-81) 1906 1,
  p 0 0 0 0 0 0 0 0 0 0 (-55626) 316 0,
  p 0 0 0 0 0 0 0 0 0 0 2 (-21) 2,
  p 0 0 0 0 0 0 0 0 0 0 1244 (-27) 1,
  p 0 0 0 0 0 0 0 0 0 0 (-448) 85285 0,
  p 0 0 0 0 0 0 0 0 0 0 26 0 2,
  p 0 0 0 0 0 0 0 0 0 0 43 (-36) 1,
  p 3 (-1) 0 2 0 0 0 0 0 0 0 (-12) 0,
  p 8 0 (-4) 4 0 0 0 0 0 0 (-16) 0 0,
  p 4 0 0 (-2) 0 2 0 0 0 0 (-20) 0 0,
  p 22 0 0 (-9) 13 0 0 0 0 0 12 (-20) 0,
  p 6 0 (-3) 3 0 0 0 0 0 0 (-52) 0 0,
  p 11 0 (-5) 6 0 0 0 0 0 0 40 927 0,
  p 0 0 0 0 0 0 0 0 0 0 (-86648) 52 0,
  p 11 0 (-5) 6 0 0 0 0 0 0 (-1) (-21) 1,
  p 0 0 0 0 0 0 0 0 0 0 1937 (-1) 1,
  p 0 0 0 0 0 0 0 0 0 0 (-130) (-1626) 0,
  p 0 0 0 0 0 0 0 0 0 0 (-31) 0 2,
  p 0 0 0 0 0 0 0 0 0 0 (-52) (-125) 1,
  p 0 0 0 0 0 0 0 0 0 0 102970 (-263) 0,
  p 0 0 0 0 0 0 0 0 0 0 (-2302) 6 1,
  p 0 0 0 0 0 0 0 0 0 0 110 (-5555) 0,
  p 0 0 0 0 0 0 0 0 0 0 24 (-1) 2,
  p 0 0 0 0 0 0 0 0 0 0 (-40) (-2405) 1,
  p 1 0 0 (-1) 0 0 0 0 0 0 84 (-44) 0,
  p 0 0 0 0 0 0 0 0 0 0 (-81313) 40 0,
  p 0 0 0 0 0 0 0 0 0 0 1 27 2,
  p 0 0 0 0 0 0 0 0 0 0 1818 (-1) 1,
  p 1 0 0 (-1) 0 0 0 0 0 0 60 110 0,
  p 0 0 0 0 0 0 0 0 0 0 30 (-107560) 0,
  p 0 0 0 0 0 0 0 0 0 0 (-35) 0 2,
  p 0 0 0 0 0 0 0 0 0 0 (-58) (-136) 1,
  p 5 0 0 (-2) 0 3 0 0 0 0 (-84) 44 0,
  p 0 0 0 0 0 0 0 0 0 0 116322 (-294) 0,
  p 0 0 0 0 0 0 0 0 0 0 (-2601) 7 1,
  p 0 0 0 0 0 0 0 0 0 0 130 (-6090) 0,
  p 0 0 0 0 0 0 0 0 0 0 (-34) 1 2,
  p 0 0 0 0 0 0 0 0 0 0 (-61) (-2759) 1,
  p 6 0 (-3) 3 0 0 0 0 0 0 (-12) 0 0,
  p 4 0 0 (-2) 0 2 0 0 0 0 (-24) 0 0,
  p 0 0 0 0 0 0 0 0 0 0 113748 (-4) 0,
  p 0 0 0 0 0 0 0 0 0 0 1 31 2,
  p 0 0 0 0 0 0 0 0 0 0 (-2543) 100 1,
  p 4 0 0 (-2) 0 2 0 0 0 0 0 30 0,
  p 0 0 0 0 0 0 0 0 0 0 (-30) (-123389) 0,
  p 0 0 0 0 0 0 0 0 0 0 37 (-2) 2,
  p 0 0 0 0 0 0 0 0 0 0 74 2960 1,
  p 5 0 0 2 0 (-3) 0 0 0 0 95 (-48) 0,
  p 0 0 0 0 0 0 0 0 0 0 (-123496) 521 0,
  p 0 0 0 0 0 0 0 0 0 0 (-1) (-33) 2,
  p 0 0 0 0 0 0 0 0 0 0 2761 (-122) 1,
  p 5 0 0 2 0 (-3) 0 0 0 0 (-50) (-110) 0,
  p 0 0 0 0 0 0 0 0 0 0 590 132381 0,
  p 0 0 0 0 0 0 0 0 0 0 38 (-1) 2,
  p 0 0 0 0 0 0 0 0 0 0 68 (-3101) 1,
  p 0 0 0 0 0 0 0 0 0 0 (-129202) 0 0,
  p 0 0 0 0 0 0 0 0 0 0 (-1) 35 2,
  p 0 0 0 0 0 0 0 0 0 0 2889 0 1,
  p 0 0 0 0 0 0 0 0 0 0 0 (-138700) 0,
  p 0 0 0 0 0 0 0 0 0 0 46 (-2) 2,
  p 0 0 0 0 0 0 0 0 0 0 92 3678 1,
  p 4 0 0 2 0 (-2) 0 0 0 0 12 0 0,
  p 0 0 0 0 0 0 0 0 0 0 (-153409) 629 0,
  p 0 0 0 0 0 0 0 0 0 0 (-1) (-41) 2,
  p 0 0 0 0 0 0 0 0 0 0 3430 (-125) 1,
  p 0 0 0 0 0 0 0 0 0 0 680 164501 0,
  p 0 0 0 0 0 0 0 0 0 0 (-56) 0 2,
  p 0 0 0 0 0 0 0 0 0 0 (-94) 107 1,
  p 7 0 0 (-2) 0 0 5 0 0 0 12 0 0,
  p 8 0 (-4) 4 0 0 0 0 0 0 12 0 0,
  p 4 0 0 (-2) 0 0 2 0 0 0 12 0 0,
  p 8 0 0 (-2) 0 1 5 0 0 0 12 0 0,
  p 12 0 0 (-2) 0 5 (-5) 0 0 0 0 12 0,
  p 7 0 2 (-5) 0 0 0 0 0 0 0 (-12) 0,
  p 8 0 0 (-4) 4 0 0 0 0 0 16 0 0,
  p 6 0 0 (-2) 0 2 2 0 0 0 (-16) 0 0,
  p 4 0 (-2) 2 0 0 0 0 0 0 20 0 0,
  p 15 0 0 (-4) 8 (-3) 0 0 0 0 (-20) 0 0,
  p 9 0 0 (-2) 0 4 (-3) 0 0 0 24 (-36) 0,
  p 6 0 0 (-2) 0 3 (-1) 0 0 0 (-60) 0 0,
  p 11 0 0 (-5) 6 0 0 0 0 0 95 48 0,
  p 14 0 0 (-6) 8 0 0 0 0 0 60 88 0,
  p 14 0 (-6) 8 0 0 0 0 0 0 (-310) (-72) 0,
  p 6 0 (-3) 3 0 0 0 0 0 0 549 0 0,
  p 5 0 0 (-2) 0 3 0 0 0 0 1388 (-247) 0,
  p 4 0 0 (-2) 0 2 0 0 0 0 1746 0 0,
  p 0 0 0 0 0 0 0 0 0 0 189827 (-72) 0,
  p 6 0 (-3) 3 0 0 0 0 0 0 (-12) 0 1,
  p 5 0 0 (-2) 0 3 0 0 0 0 (-31) 6 1,
  p 4 0 0 (-2) 0 2 0 0 0 0 (-39) 0 1,
  p 0 0 0 0 0 0 0 0 0 0 (-4245) 2 1,
  p 0 0 0 0 0 0 0 0 0 0 250 4770 0,
  p 0 0 0 0 0 0 0 0 0 0 54 (-4) 2,
  p 0 0 0 0 0 0 0 0 0 0 (-107) (-5419) 1,
  p 0 0 0 0 0 0 0 0 0 0 (-182549) 123 0,
  p 0 0 0 0 0 0 0 0 0 0 4 61 2,
  p 0 0 0 0 0 0 0 0 0 0 4082 (-102) 1,
  p 0 0 0 0 0 0 0 0 0 0 (-200) (-242359) 0,
  p 0 0 0 0 0 0 0 0 0 0 (-75) 0 2,
  p 0 0 0 0 0 0 0 0 0 0 (-82) (-273) 1,
  p 4 0 (-2) 2 0 0 0 0 0 0 (-12) 0 0,
  p 4 0 0 2 0 (-2) 0 0 0 0 (-12) 0 0,
  p 2 0 0 (-1) 0 1 0 0 0 0 (-16) 0 0,
  p 0 0 0 0 0 0 0 0 0 0 252107 (-597) 0,
  p 0 0 0 0 0 0 0 0 0 0 (-5637) 13 1,
  p 0 0 0 0 0 0 0 0 0 0 290 (-12228) 0,
  p 0 0 0 0 0 0 0 0 0 0 (-71) (-1) 2,
  p 0 0 0 0 0 0 0 0 0 0 (-96) 5712 1,
  p 2 0 0 1 0 (-1) 0 0 0 0 (-12) 0 0,
  p 5 0 0 (-2) 0 3 0 0 0 0 20 0 0,
  p 6 0 (-3) 3 0 0 0 0 0 0 (-28) 0 0,
  p 4 0 0 (-2) 0 2 0 0 0 0 (-52) 0 0,
  p 0 0 0 0 0 0 0 0 0 0 237258 593 0,
  p 0 0 0 0 0 0 0 0 0 0 0 (-64) 2,
  p 0 0 0 0 0 0 0 0 0 0 (-5305) (-124) 1,
  p 5 0 0 (-2) 0 3 0 0 0 0 0 20 0,
  p 6 0 (-3) 3 0 0 0 0 0 0 0 (-30) 0,
  p 4 0 0 (-2) 0 2 0 0 0 0 0 (-60) 0,
  p 0 0 0 0 0 0 0 0 0 0 (-660) 255451 0,
  p 0 0 0 0 0 0 0 0 0 0 61 2 2,
  p 0 0 0 0 0 0 0 0 0 0 (-42) 5894 1,
  p 5 0 0 (-2) 0 3 0 0 0 0 84 (-44) 0,
  p 0 0 0 0 0 0 0 0 0 0 (-205316) 513 0,
  p 0 0 0 0 0 0 0 0 0 0 3 (-66) 2,
  p 0 0 0 0 0 0 0 0 0 0 4591 (-12) 1,
  p 5 0 0 (-2) 0 3 0 0 0 0 (-60) (-110) 0,
  p 0 0 0 0 0 0 0 0 0 0 780 263613 0,
  p 0 0 0 0 0 0 0 0 0 0 (-69) 2 2,
  p 34 0 (-18) 16 0 0 0 0 0 0 4 8 1,
  p 0 0 0 0 0 0 0 0 0 0 146 7031 1,
  p 13 0 (-10) 3 0 0 0 0 0 0 12 0 0,
  p 34 0 (-18) 16 0 0 0 0 0 0 270 (-135) 0,
  p 0 0 0 0 0 0 0 0 0 0 230758 (-752) 0,
  p 0 0 0 0 0 0 0 0 0 0 (-5) (-79) 2,
  p 0 0 0 0 0 0 0 0 0 0 (-5160) 16 1,
  p 13 0 (-10) 3 0 0 0 0 0 0 0 10 0,
  p 34 0 (-18) 16 0 0 0 0 0 0 180 360 0,
  p 0 0 0 0 0 0 0 0 0 0 750 314398 0,
  p 0 0 0 0 0 0 0 0 0 0 (-75) (-2) 2,
  p 34 0 (-18) 16 0 0 0 0 0 0 (-3) (-7) 1,
  p 0 0 0 0 0 0 0 0 0 0 116 (-7433) 1,
  p 13 0 (-10) 3 0 0 0 0 0 0 12 0 0,
  p 34 0 (-18) 16 0 0 0 0 0 0 227 (-111) 0,
  p 0 0 0 0 0 0 0 0 0 0 251185 107 0,
  p 0 0 0 0 0 0 0 0 0 0 (-4) 83 2,
  p 0 0 0 0 0 0 0 0 0 0 (-5617) (-1) 1,
  p 13 0 (-10) 3 0 0 0 0 0 0 0 (-10) 0,
  p 34 0 (-18) 16 0 0 0 0 0 0 (-150) (-300) 0,
  p 0 0 0 0 0 0 0 0 0 0 (-90) (-332389) 0,
  p 0 0 0 0 0 0 0 0 0 0 146 4 2,
  p 15 0 0 4 (-8) 3 0 0 0 0 6 12 1,
  p 0 0 0 0 0 0 0 0 0 0 216 (-11921) 1,
  p 13 0 (-10) 3 0 0 0 0 0 0 20 0 0,
  p 15 0 0 4 (-8) 3 0 0 0 0 501 (-251) 0,
  p 0 0 0 0 0 0 0 0 0 0 (-491093) 76 0,
  p 0 0 0 0 0 0 0 0 0 0 (-2) 133 2,
  p 15 0 0 4 (-8) 3 0 0 0 0 (-11) 6 1,
  p 0 0 0 0 0 0 0 0 0 0 10981 320 1,
  p 13 0 (-10) 3 0 0 0 0 0 0 (-10) 20 0,
  p 15 0 0 4 (-8) 3 0 0 0 0 270 550 0,
  p 0 0 0 0 0 0 0 0 0 0 40 (-533113) 0,
  p 0 0 0 0 0 0 0 0 0 0 186 0 2,
  p 0 0 0 0 0 0 0 0 0 0 271 (-276) 1,
  p 4 0 0 2 0 (-2) 0 0 0 0 (-12) 0 0,
  p 4 0 (-2) 2 0 0 0 0 0 0 (-16) 0 0,
  p 15 0 0 (-4) 8 (-3) 0 0 0 0 0 (-16) 0,
  p 2 0 1 (-1) 0 0 0 0 0 0 (-16) 0 0,
  p 15 0 0 4 (-8) 3 0 0 0 0 0 (-16) 0,
  p 35 0 17 (-16) 0 (-2) 0 0 0 0 0 20 0,
  p 4 0 2 (-2) 0 0 0 0 0 0 24 0 0,
  p 2 0 0 1 0 (-1) 0 0 0 0 28 0 0,
  p 41 0 20 (-21) 0 0 0 0 0 0 0 (-32) 0,
  p 5 0 0 (-2) 0 3 0 0 0 0 (-52) 0 0,
  p 6 0 (-3) 3 0 0 0 0 0 0 76 0 0,
  p 4 0 0 (-2) 0 2 0 0 0 0 135 0 0,
  p 43 0 19 (-21) 3 0 0 0 0 0 410 (-239) 0,
  p 0 0 0 0 0 0 0 0 0 0 (-624502) (-668) 0,
  p 43 0 19 (-21) 3 0 0 0 0 0 (-9) 5 1,
  p 0 0 0 0 0 0 0 0 0 0 13964 15 1]

private def xyPln_13 : List Pln := [
  p 0 0 0 0 0 0 0 0 0 0 (-820) (-12348) 0,
  p 0 0 0 0 0 0 0 0 0 0 (-152) (-7) 2,
  p 6 0 (-3) 3 0 0 0 0 0 0 0 (-14) 1,
  p 11 0 (-5) 6 0 0 0 0 0 0 (-52) 3 1,
  p 0 0 0 0 0 0 0 0 0 0 286 (-15491) 1,
  p 2 0 1 (-1) 0 0 0 0 0 0 12 0 0,
  p 25 0 0 (-10) 15 0 0 0 0 0 (-12) 0 0,
  p 16 0 0 (-7) 9 0 0 0 0 0 0 12 0,
  p 8 0 0 (-4) 4 0 0 0 0 0 12 0 0,
  p 2 0 0 (-2) 0 0 0 0 0 0 (-12) 0 0,
  p 3 0 0 (-2) 0 1 0 0 0 0 (-12) 0 0,
  p 19 0 (-8) 11 0 0 0 0 0 0 0 12 0,
  p 15 0 0 4 (-8) 3 0 0 0 0 0 16 0,
  p 15 0 0 (-4) 8 (-3) 0 0 0 0 0 16 0,
  p 10 0 (-5) 5 0 0 0 0 0 0 16 0 0,
  p 6 0 0 (-3) 0 3 0 0 0 0 16 0 0,
  p 2 0 0 1 0 (-1) 0 0 0 0 (-16) 0 0,
  p 2 0 0 (-1) 0 1 0 0 0 0 20 0 0,
  p 5 0 0 (-2) 0 3 0 0 0 0 28 0 0,
  p 3 (-1) 0 2 0 0 0 0 0 0 0 32 0,
  p 19 0 0 (-8) 11 0 0 0 0 0 0 32 0,
  p 4 0 0 (-2) 0 0 2 0 0 0 32 0 0,
  p 4 0 (-2) 2 0 0 0 0 0 0 44 0 0,
  p 22 0 0 (-9) 13 0 0 0 0 0 40 (-88) 0,
  p 8 0 (-4) 4 0 0 0 0 0 0 107 0 0,
  p 4 0 0 (-2) 0 2 0 0 0 0 199 0 0,
  p 6 0 (-3) 3 0 0 0 0 0 0 465 0 0,
  p 11 0 (-5) 6 0 0 0 0 0 0 (-72) (-1734) 0,
  p 0 0 0 0 0 0 0 0 0 0 509550 719 0,
  p 0 0 0 0 0 0 0 0 0 0 (-10) 173 2,
  p 6 0 (-3) 3 0 0 0 0 0 0 (-10) 0 1,
  p 11 0 (-5) 6 0 0 0 0 0 0 2 39 1,
  p 0 0 0 0 0 0 0 0 0 0 (-11394) (-104) 1,
  p 19 0 (-8) 11 0 0 0 0 0 0 20 0 0,
  p 10 0 (-5) 5 0 0 0 0 0 0 0 (-20) 0,
  p 8 0 0 (-4) 4 0 0 0 0 0 0 (-20) 0,
  p 6 0 0 (-3) 0 3 0 0 0 0 0 (-20) 0,
  p 2 0 0 (-2) 0 0 0 0 0 0 0 20 0,
  p 2 0 0 1 0 (-1) 0 0 0 0 0 20 0,
  p 15 0 0 (-4) 8 (-3) 0 0 0 0 20 0 0,
  p 15 0 0 4 (-8) 3 0 0 0 0 20 0 0,
  p 16 0 0 (-7) 9 0 0 0 0 0 20 (-10) 0,
  p 2 0 0 (-1) 0 1 0 0 0 0 0 (-30) 0,
  p 19 0 0 (-8) 11 0 0 0 0 0 40 0 0,
  p 4 0 0 (-2) 0 0 2 0 0 0 0 (-40) 0,
  p 5 0 0 (-2) 0 3 0 0 0 0 0 (-40) 0,
  p 3 (-1) 0 2 0 0 0 0 0 0 40 10 0,
  p 4 0 (-2) 2 0 0 0 0 0 0 0 (-60) 0,
  p 22 0 0 (-9) 13 0 0 0 0 0 (-120) (-50) 0,
  p 8 0 (-4) 4 0 0 0 0 0 0 0 (-140) 0,
  p 4 0 0 (-2) 0 2 0 0 0 0 0 (-270) 0,
  p 6 0 (-3) 3 0 0 0 0 0 0 0 (-630) 0,
  p 11 0 (-5) 6 0 0 0 0 0 0 (-2330) 90 0,
  p 0 0 0 0 0 0 0 0 0 0 392 (-691822) 0,
  p 0 0 0 0 0 0 0 0 0 0 254 60 2,
  p 0 0 0 0 0 0 0 0 0 0 2387 (-21450) 1,
  p 0 0 0 0 0 0 0 0 0 0 (-858495) 442 0,
  p 0 0 0 0 0 0 0 0 0 0 (-48) 240 2,
  p 0 0 0 0 0 0 0 0 0 0 19206 2983 1,
  p 0 0 0 0 0 0 0 0 0 0 (-1320) (-959272) 0,
  p 0 0 0 0 0 0 0 0 0 0 357 (-6) 2,
  p 1 0 0 1 0 0 0 0 0 0 (-6) (-13) 1,
  p 0 0 0 0 0 0 0 0 0 0 570 28849 1,
  p 2 0 (-1) 1 0 0 0 0 0 0 (-12) 0 0,
  p 2 0 1 (-1) 0 0 0 0 0 0 12 0 0,
  p 15 0 0 4 (-8) 3 0 0 0 0 0 12 0,
  p 15 0 0 (-4) 8 (-3) 0 0 0 0 0 12 0,
  p 1 0 0 1 0 0 0 0 0 0 521 (-251) 0,
  p 0 0 0 0 0 0 0 0 0 0 (-1199174) 3246 0,
  p 0 0 0 0 0 0 0 0 0 0 (-4) (-323) 2,
  p 1 0 0 1 0 0 0 0 0 0 (-12) 6 1,
  p 0 0 0 0 0 0 0 0 0 0 26814 (-706) 1,
  p 1 0 0 1 0 0 0 0 0 0 (-260) (-570) 0,
  p 0 0 0 0 0 0 0 0 0 0 3670 1290266 0,
  p 0 0 0 0 0 0 0 0 0 0 459 17 2,
  p 0 0 0 0 0 0 0 0 0 0 (-577) 44876 1,
  p 0 0 0 0 0 0 0 0 0 0 (-1540685) 1512 0,
  p 0 0 0 0 0 0 0 0 0 0 24 (-502) 2,
  p 0 0 0 0 0 0 0 0 0 0 34450 141 1,
  p 0 0 0 0 0 0 0 0 0 0 3180 2006950 0,
  p 0 0 0 0 0 0 0 0 0 0 608 (-136) 2,
  p 0 0 0 0 0 0 0 0 0 0 5920 50182 1,
  p 0 0 0 0 0 0 0 0 0 0 (-2055778) (-2084) 0,
  p 0 0 0 0 0 0 0 0 0 0 (-119) (-561) 2,
  p 0 0 0 0 0 0 0 0 0 0 45968 (-6730) 1,
  p 0 0 0 0 0 0 0 0 0 0 (-1740) 2243842 0,
  p 0 0 0 0 0 0 0 0 0 0 (-841) 1 2,
  p 0 0 0 0 0 0 0 0 0 0 (-1119) (-1507) 1,
  p 5 0 0 (-2) 0 3 0 0 0 0 12 0 0,
  p 2 0 0 1 0 (-1) 0 0 0 0 12 0 0,
  p 6 0 (-3) 3 0 0 0 0 0 0 (-16) 0 0,
  p 2 0 0 (-1) 0 1 0 0 0 0 (-16) 0 0,
  p 2 0 1 (-1) 0 0 0 0 0 0 (-16) 0 0,
  p 2 0 (-1) 1 0 0 0 0 0 0 20 0 0,
  p 15 0 0 (-4) 8 (-3) 0 0 0 0 0 (-20) 0,
  p 15 0 0 4 (-8) 3 0 0 0 0 0 (-20) 0,
  p 4 0 0 (-2) 0 2 0 0 0 0 (-24) 0 0,
  p 13 0 (-10) 3 0 0 0 0 0 0 871 354 0,
  p 34 0 (-18) 16 0 0 0 0 0 0 (-899) 402 0,
  p 0 0 0 0 0 0 0 0 0 0 2828828 (-3469) 0,
  p 0 0 0 0 0 0 0 0 0 0 7 17 2,
  p 13 0 (-10) 3 0 0 0 0 0 0 (-19) (-8) 1,
  p 34 0 (-18) 16 0 0 0 0 0 0 20 (-9) 1,
  p 0 0 0 0 0 0 0 0 0 0 (-63254) 78 1,
  p 0 0 0 0 0 0 0 0 0 0 3580 (-67499) 0,
  p 0 0 0 0 0 0 0 0 0 0 (-1736) (-50) 2,
  p 0 0 0 0 0 0 0 0 0 0 (-17973) 16433 1,
  p 0 0 0 0 0 0 0 0 0 0 5870702 47005 0,
  p 0 0 0 0 0 0 0 0 0 0 13 0 3,
  p 0 0 0 0 0 0 0 0 0 0 357 (-183) 2,
  p 0 0 0 0 0 0 0 0 0 0 (-131221) (-2893) 1,
  p 0 0 0 0 0 0 0 0 0 0 (-19240) 738702 0,
  p 0 0 0 0 0 0 0 0 0 0 0 20 3,
  p 0 0 0 0 0 0 0 0 0 0 (-2443) 47 2,
  p 0 0 0 0 0 0 0 0 0 0 (-3607) (-200436) 1,
  p 8 0 (-3) 5 0 0 0 0 0 0 12 0 0,
  p 1 0 0 0 0 1 0 0 0 0 0 (-12) 0,
  p 3 0 0 (-1) 2 0 0 0 0 0 (-20) (-16) 0,
  p 15 0 0 (-4) 8 (-3) 0 0 0 0 0 (-28) 0,
  p 15 0 0 4 (-8) 3 0 0 0 0 0 (-28) 0,
  p 0 0 0 0 0 0 0 0 0 0 8216876 (-2764) 0,
  p 0 0 0 0 0 0 0 0 0 0 18 0 3,
  p 0 0 0 0 0 0 0 0 0 0 24 2241 2,
  p 0 0 0 0 0 0 0 0 0 0 (-183732) 4800 1,
  p 1 0 0 0 0 1 0 0 0 0 (-10) 0 0,
  p 3 0 0 (-1) 2 0 0 0 0 0 (-20) 20 0,
  p 15 0 0 (-4) 8 (-3) 0 0 0 0 (-30) 0 0,
  p 15 0 0 4 (-8) 3 0 0 0 0 (-30) 0 0,
  p 0 0 0 0 0 0 0 0 0 0 (-2905) (-8961824) 0,
  p 0 0 0 0 0 0 0 0 0 0 0 (-22) 3,
  p 0 0 0 0 0 0 0 0 0 0 2692 (-46) 2,
  p 0 0 0 0 0 0 0 0 0 0 4144 218791 1,
  p 4 0 (-2) 2 0 0 0 0 0 0 12 0 0,
  p 4 0 2 (-2) 0 0 0 0 0 0 (-12) 0 0,
  p 5 0 (-2) 3 0 0 0 0 0 0 0 12 0,
  p 5 0 2 (-3) 0 0 0 0 0 0 0 12 0,
  p 2 0 0 1 0 (-1) 0 0 0 0 (-24) 0 0,
  p 2 0 0 (-1) 0 1 0 0 0 0 24 0 0,
  p 2 0 (-1) 1 0 0 0 0 0 0 (-32) 0 0,
  p 2 0 1 (-1) 0 0 0 0 0 0 32 0 0,
  p 15 0 0 4 (-8) 3 0 0 0 0 0 36 0,
  p 15 0 0 (-4) 8 (-3) 0 0 0 0 0 36 0,
  p 1 0 0 1 0 0 0 0 0 0 (-95) (-48) 0,
  p 0 0 0 0 0 0 0 0 0 0 (-9055222) 11123 0,
  p 0 0 0 0 0 0 0 0 0 0 (-20) 0 3,
  p 0 0 0 0 0 0 0 0 0 0 (-28) (-2446) 2,
  p 0 0 0 0 0 0 0 0 0 0 202468 (-5126) 1,
  p 4 0 (-2) 2 0 0 0 0 0 0 0 (-10) 0,
  p 4 0 2 (-2) 0 0 0 0 0 0 0 10 0,
  p 5 0 (-2) 3 0 0 0 0 0 0 10 0 0,
  p 5 0 2 (-3) 0 0 0 0 0 0 10 0 0,
  p 2 0 0 1 0 (-1) 0 0 0 0 0 30 0,
  p 2 0 0 (-1) 0 1 0 0 0 0 0 (-30) 0,
  p 2 0 (-1) 1 0 0 0 0 0 0 0 30 0,
  p 2 0 1 (-1) 0 0 0 0 0 0 0 (-40) 0,
  p 15 0 0 4 (-8) 3 0 0 0 0 40 10 0,
  p 15 0 0 (-4) 8 (-3) 0 0 0 0 40 (-10) 0,
  p 1 0 0 1 0 0 0 0 0 0 (-50) 100 0,
  p 0 0 0 0 0 0 0 0 0 0 13741 9784669 0,
  p 0 0 0 0 0 0 0 0 0 0 0 (-127) 3,
  p 0 0 0 0 0 0 0 0 0 0 15574 (-275) 2,
  p 0 0 0 0 0 0 0 0 0 0 19897 1281401 1,
  p 4 0 0 (-2) 0 2 0 0 0 0 (-20) 0 0,
  p 11 0 (-5) 6 0 0 0 0 0 0 0 48 0,
  p 6 0 (-3) 3 0 0 0 0 0 0 (-48) 0 0,
  p 19 0 (-8) 11 0 0 0 0 0 0 0 60 0,
  p 0 0 0 0 0 0 0 0 0 0 (-52390804) (-54475) 0,
  p 0 0 0 0 0 0 0 0 0 0 (-116) (-1) 3,
  p 0 0 0 0 0 0 0 0 0 0 (-103) (-14327) 2,
  p 0 0 0 0 0 0 0 0 0 0 1171449 (-29091) 1,
  p 4 0 0 (-2) 0 2 0 0 0 0 0 20 0,
  p 11 0 (-5) 6 0 0 0 0 0 0 50 0 0,
  p 6 0 (-3) 3 0 0 0 0 0 0 0 50 0,
  p 19 0 (-8) 11 0 0 0 0 0 0 60 0 0,
  p 0 0 0 0 0 0 0 0 0 0 (-45866) 57303342 0,
  p 0 0 0 0 0 0 0 0 0 0 (-10) (-2) 4,
  p 0 0 0 0 0 0 0 0 0 0 173 (-2039) 3,
  p 0 0 0 0 0 0 0 0 0 0 203798 8146 2,
  p 1 0 0 0 0 1 0 0 0 0 (-8) (-2) 1,
  p 21 0 (-8) 13 0 0 0 0 0 0 7 5 1,
  p 7 0 0 0 0 2 (-5) 0 0 0 2 9 1,
  p 7 0 0 0 0 (-2) 5 0 0 0 2 (-9) 1,
  p 21 0 8 (-13) 0 0 0 0 0 0 8 (-6) 1,
  p 15 0 0 4 (-8) 3 0 0 0 0 35 9 1,
  p 15 0 0 (-4) 8 (-3) 0 0 0 0 35 (-11) 1,
  p 3 0 0 (-1) 2 0 0 0 0 0 (-51) 56 1,
  p 0 0 0 0 0 0 0 0 0 0 (-330973) 20583311 1,
  p 4 0 0 2 0 (-2) 0 0 0 0 (-12) 0 0,
  p 3 0 (-1) 2 0 0 0 0 0 0 0 12 0,
  p 20 0 0 7 (-13) 0 0 0 0 0 (-12) 0 0,
  p 7 0 (-3) 4 0 0 0 0 0 0 0 12 0,
  p 4 0 0 (-2) 2 0 0 0 0 0 12 0 0,
  p 3 0 0 (-1) 0 2 0 0 0 0 0 12 0,
  p 7 0 3 (-4) 0 0 0 0 0 0 0 (-16) 0,
  p 3 0 0 1 0 (-2) 0 0 0 0 0 (-16) 0,
  p 4 0 (-2) 2 0 0 0 0 0 0 16 0 0,
  p 4 0 0 2 (-2) 0 0 0 0 0 20 0 0,
  p 13 0 5 (-8) 0 0 0 0 0 0 0 20 0,
  p 1 0 0 0 0 0 (-1) 0 0 0 0 20 0,
  p 26 0 0 (-9) 17 0 0 0 0 0 (-12) (-16) 0]

private def xyPln_14 : List Pln := [
  p 23 0 0 (-8) 15 0 0 0 0 0 (-20) (-12) 0,
  p 4 0 2 (-2) 0 0 0 0 0 0 24 0 0,
  p 8 0 3 (-5) 0 0 0 0 0 0 (-32) 0 0,
  p 6 0 0 2 (-4) 0 0 0 0 0 (-16) 32 0,
  p 14 0 (-3) 7 (-4) 0 0 0 0 0 (-36) (-20) 0,
  p 2 0 0 (-1) 0 1 0 0 0 0 44 0 0,
  p 14 0 3 (-7) 4 0 0 0 0 0 40 (-24) 0,
  p 10 0 3 (-5) 0 2 0 0 0 0 52 0 0,
  p 2 0 0 1 0 (-1) 0 0 0 0 59 0 0,
  p 1 0 0 0 0 (-1) 0 0 0 0 16 60 0,
  p 23 0 0 8 (-15) 0 0 0 0 0 60 (-28) 0,
  p 5 0 (-2) 3 0 0 0 0 0 0 0 76 0,
  p 2 0 (-1) 1 0 0 0 0 0 0 (-76) 0 0,
  p 8 0 (-3) 5 0 0 0 0 0 0 (-84) (-24) 0,
  p 6 0 0 (-2) 4 0 0 0 0 0 (-44) (-84) 0,
  p 1 0 0 0 0 0 1 0 0 0 16 95 0,
  p 2 0 1 (-1) 0 0 0 0 0 0 (-111) 0 0,
  p 5 0 2 (-3) 0 0 0 0 0 0 0 (-127) 0,
  p 3 0 0 1 (-2) 0 0 0 0 0 (-147) 139 0,
  p 21 0 (-8) 13 0 0 0 0 0 0 (-159) 227 0,
  p 1 0 0 0 0 1 0 0 0 0 80 (-278) 0,
  p 7 0 0 0 0 2 (-5) 0 0 0 (-290) 68 0,
  p 7 0 0 0 0 (-2) 5 0 0 0 302 68 0,
  p 21 0 8 (-13) 0 0 0 0 0 0 183 263 0,
  p 15 0 0 4 (-8) 3 0 0 0 0 (-326) 1162 0,
  p 15 0 0 (-4) 8 (-3) 0 0 0 0 334 1186 0,
  p 3 0 0 (-1) 2 0 0 0 0 0 (-1830) (-1730) 0,
  p 0 0 0 0 0 0 0 0 0 0 (-684431844) 132867 0,
  p 0 0 0 0 0 0 0 0 0 0 (-2) 11 4,
  p 0 0 0 0 0 0 0 0 0 0 (-1522) (-161) 3,
  p 0 0 0 0 0 0 0 0 0 0 12056 (-230127) 2,
  p 15 0 0 4 (-8) 3 0 0 0 0 7 (-26) 1,
  p 15 0 0 (-4) 8 (-3) 0 0 0 0 (-7) (-27) 1,
  p 3 0 0 (-1) 2 0 0 0 0 0 41 39 1,
  p 0 0 0 0 0 0 0 0 0 0 15304179 85332 1,
  p 3 0 0 (-1) 0 2 0 0 0 0 10 0 0,
  p 4 0 0 2 0 (-2) 0 0 0 0 0 20 0,
  p 4 0 0 2 (-2) 0 0 0 0 0 0 (-20) 0,
  p 7 0 3 (-4) 0 0 0 0 0 0 (-20) 0 0,
  p 20 0 0 7 (-13) 0 0 0 0 0 0 20 0,
  p 7 0 (-3) 4 0 0 0 0 0 0 20 0 0,
  p 4 0 0 (-2) 2 0 0 0 0 0 0 (-20) 0,
  p 4 0 (-2) 2 0 0 0 0 0 0 0 (-20) 0,
  p 3 0 0 1 0 (-2) 0 0 0 0 (-20) (-10) 0,
  p 26 0 0 (-9) 17 0 0 0 0 0 (-20) 10 0,
  p 4 0 2 (-2) 0 0 0 0 0 0 0 (-30) 0,
  p 13 0 5 (-8) 0 0 0 0 0 0 30 0 0,
  p 1 0 0 0 0 0 (-1) 0 0 0 30 0 0,
  p 23 0 0 (-8) 15 0 0 0 0 0 (-10) 30 0,
  p 8 0 3 (-5) 0 0 0 0 0 0 10 40 0,
  p 6 0 0 2 (-4) 0 0 0 0 0 40 20 0,
  p 14 0 3 (-7) 4 0 0 0 0 0 (-30) (-50) 0,
  p 14 0 (-3) 7 (-4) 0 0 0 0 0 (-30) 50 0,
  p 2 0 0 (-1) 0 1 0 0 0 0 0 (-60) 0,
  p 10 0 3 (-5) 0 2 0 0 0 0 0 (-70) 0,
  p 2 0 0 1 0 (-1) 0 0 0 0 0 (-80) 0,
  p 1 0 0 0 0 (-1) 0 0 0 0 80 (-20) 0,
  p 23 0 0 8 (-15) 0 0 0 0 0 (-40) (-80) 0,
  p 5 0 (-2) 3 0 0 0 0 0 0 100 0 0,
  p 2 0 (-1) 1 0 0 0 0 0 0 0 100 0,
  p 8 0 (-3) 5 0 0 0 0 0 0 (-30) 110 0,
  p 6 0 0 (-2) 4 0 0 0 0 0 (-110) 60 0,
  p 1 0 0 0 0 0 1 0 0 0 130 (-20) 0,
  p 2 0 1 (-1) 0 0 0 0 0 0 0 150 0,
  p 5 0 2 (-3) 0 0 0 0 0 0 (-170) 0 0,
  p 3 0 0 1 (-2) 0 0 0 0 0 190 200 0,
  p 21 0 (-8) 13 0 0 0 0 0 0 300 210 0,
  p 1 0 0 0 0 1 0 0 0 0 (-370) (-110) 0,
  p 7 0 0 0 0 2 (-5) 0 0 0 90 390 0,
  p 7 0 0 0 0 (-2) 5 0 0 0 90 (-410) 0,
  p 21 0 8 (-13) 0 0 0 0 0 0 350 (-250) 0,
  p 15 0 0 4 (-8) 3 0 0 0 0 1560 440 0,
  p 15 0 0 (-4) 8 (-3) 0 0 0 0 1590 (-450) 0,
  p 3 0 0 (-1) 2 0 0 0 0 0 (-2320) 2460 0,
  p 0 0 0 0 0 0 0 0 0 0 153818 920523626 0]

/-- `XyPln` (xycip06a_xy.cpp:399-14775). -/
def xyPln : List Pln := xyPln_0 ++ xyPln_1 ++ xyPln_2 ++ xyPln_3 ++ xyPln_4 ++ xyPln_5 ++ xyPln_6 ++ xyPln_7 ++ xyPln_8 ++ xyPln_9 ++ xyPln_10 ++ xyPln_11 ++ xyPln_12 ++ xyPln_13 ++ xyPln_14

end Verif.Cip
