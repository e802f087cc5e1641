import Verif.Model.CipRow
/-
Series of src/lib/iau/xcip06a.cpp.

Generated from the source; amplitudes in hundredths of a microarcsecond (exact for every entry).
-/
namespace Verif.Cip

private def x0Series_0 : List Row := [
  r 11 0 0 0 4 (-4) 4 0 0 0 0 0 0 0 0 0,
  r (-12) 0 1 0 (-2) 4 (-2) 0 0 0 0 0 0 0 0 0,
  r (-12) 0 0 0 0 0 1 0 0 2 0 (-2) 0 0 0 0,
  r 12 0 1 1 0 0 (-2) 0 0 0 0 0 0 0 0 0,
  r 12 0 2 0 0 (-4) (-2) 0 0 0 0 0 0 0 0 0,
  r 12 0 1 0 0 (-4) 2 0 0 0 0 0 0 0 0 0,
  r (-12) 0 3 0 0 0 (-2) 0 0 0 0 0 0 0 0 0,
  r 12 0 2 0 0 (-4) 2 0 0 0 0 0 0 0 0 0,
  r (-12) 0 2 1 2 (-4) 2 0 0 0 0 0 0 0 0 0,
  r (-12) 0 0 0 1 (-1) 2 0 0 (-1) 0 0 (-1) 0 0 0,
  r 12 0 2 1 (-2) 0 (-2) 0 0 0 0 0 0 0 0 0,
  r 12 0 1 1 (-2) 1 (-2) 0 0 0 0 0 0 0 0 0,
  r 12 0 2 (-1) 0 (-2) 2 0 0 0 0 0 0 0 0 0,
  r 0 12 0 0 0 0 1 0 (-1) 2 0 0 0 0 0 0,
  r 0 (-12) 0 0 1 (-1) 2 0 (-3) 4 0 0 0 0 0 0,
  r 0 (-12) 0 0 1 1 2 0 0 1 0 0 0 0 0 0,
  r 12 0 0 0 0 0 2 0 (-3) 5 0 0 0 0 0 0,
  r 12 0 0 0 1 (-1) (-1) 0 (-5) 7 0 0 0 0 0 0,
  r 12 0 2 0 0 (-6) (-1) 0 0 0 0 0 0 0 0 0,
  r (-12) 0 3 0 (-2) (-4) (-2) 0 0 0 0 0 0 0 0 0,
  r (-12) 0 1 (-1) 0 4 1 0 0 0 0 0 0 0 0 0,
  r 12 0 2 1 0 2 1 0 0 0 0 0 0 0 0 0,
  r (-12) 0 0 0 0 0 1 0 0 7 (-13) 0 0 0 0 0,
  r 12 0 4 0 (-2) 0 (-1) 0 0 0 0 0 0 0 0 0,
  r (-12) 0 1 0 2 1 0 0 0 0 0 0 0 0 0 0,
  r (-12) 0 2 1 2 0 0 0 0 0 0 0 0 0 0 0,
  r (-12) 0 2 1 2 (-2) 0 0 0 0 0 0 0 0 0 0,
  r (-12) 0 2 0 2 (-6) 1 0 0 0 0 0 0 0 0 0,
  r 12 0 0 0 2 (-2) 1 0 1 (-1) 0 0 0 0 0 0,
  r 0 12 1 0 (-1) 1 0 0 0 1 0 0 0 0 0 0,
  r (-12) 0 0 0 1 (-1) 0 0 (-2) 2 0 0 0 0 0 0,
  r (-12) 0 1 2 2 (-4) 1 0 0 0 0 0 0 0 0 0,
  r (-12) 0 3 0 (-2) (-1) (-1) 0 0 0 0 0 0 0 0 0,
  r 12 0 2 0 0 (-2) 0 0 0 (-2) 0 0 5 0 0 0,
  r (-12) 0 1 0 0 3 0 0 0 0 0 0 0 0 0 0,
  r (-12) 0 1 1 0 (-6) 0 0 0 0 0 0 0 0 0 0,
  r 8 4 0 0 0 0 0 0 0 0 1 0 0 0 0 0,
  r 12 0 0 0 0 0 0 0 0 0 0 0 0 0 0 2,
  r 0 12 0 0 0 0 0 0 0 0 0 0 0 1 0 0,
  r 0 12 0 0 0 0 0 0 0 0 0 1 (-2) 0 0 0,
  r 12 0 0 0 0 0 0 0 0 0 0 2 (-6) 3 0 (-2),
  r 0 12 0 0 0 0 0 0 0 1 (-3) 0 0 0 0 0,
  r 12 0 0 0 0 0 0 0 0 1 0 (-3) 5 0 0 0,
  r (-12) 0 0 0 0 0 0 0 0 1 0 0 (-3) 0 0 0,
  r 0 (-12) 0 0 0 0 0 0 0 1 0 0 2 0 0 2,
  r (-12) 0 0 0 0 0 0 0 0 1 0 1 (-5) 0 0 0,
  r 0 12 0 0 0 0 0 0 0 1 0 1 0 0 0 1,
  r 0 (-12) 0 0 0 0 0 0 0 2 (-8) 1 5 0 0 (-2),
  r 0 12 0 0 0 0 0 0 0 2 0 0 (-3) 0 0 0,
  r 12 0 0 0 0 0 0 0 0 2 0 2 0 0 0 2,
  r 12 0 0 0 0 0 0 0 0 2 1 0 0 0 0 2,
  r 0 (-12) 0 0 0 0 0 0 0 3 (-9) 0 0 0 0 (-2),
  r 0 (-12) 0 0 0 0 0 0 0 3 (-7) 0 0 0 0 (-2),
  r 0 (-12) 0 0 0 0 0 0 0 3 (-5) 0 0 0 0 (-1),
  r (-12) 0 0 0 0 0 0 0 0 3 0 (-5) 0 0 0 (-2),
  r 12 0 0 0 0 0 0 0 0 4 (-8) 3 0 0 0 (-1),
  r 12 0 0 0 0 0 0 0 0 4 (-8) 3 0 0 0 1,
  r (-12) 0 0 0 0 0 0 0 0 4 (-7) 0 0 0 0 (-1),
  r 12 0 0 0 0 0 0 0 0 5 (-16) 4 5 0 0 (-2),
  r (-12) 0 0 0 0 0 0 0 0 5 (-13) 0 0 0 0 (-2),
  r (-12) 0 0 0 0 0 0 0 0 5 (-9) 0 0 0 0 (-1),
  r (-12) 0 0 0 0 0 0 0 0 5 (-8) 3 0 0 0 2,
  r (-12) 0 0 0 0 0 0 0 0 5 (-7) 0 0 0 0 (-2),
  r 12 0 0 0 0 0 0 0 0 5 (-6) 0 0 0 0 0,
  r (-12) 0 0 0 0 0 0 0 0 5 0 (-4) 0 0 0 2,
  r 0 12 0 0 0 0 0 0 0 6 (-10) 0 0 0 0 0,
  r (-12) 0 0 0 0 0 0 0 0 6 (-9) 0 0 0 0 (-2),
  r 0 (-12) 0 0 0 0 0 0 0 6 (-8) 1 5 0 0 2,
  r (-12) 0 0 0 0 0 0 0 0 6 (-4) 0 0 0 0 2,
  r 0 12 0 0 0 0 0 0 0 7 (-12) 0 0 0 0 (-2),
  r 0 12 0 0 0 0 0 0 0 7 (-7) 0 0 0 0 2,
  r (-12) 0 0 0 0 0 0 0 0 9 (-17) 0 0 0 0 (-2),
  r 12 0 0 0 0 0 0 0 1 (-4) 0 0 0 0 0 (-1),
  r 12 0 0 0 0 0 0 0 1 (-1) 0 0 0 0 0 (-2),
  r (-12) 0 0 0 0 0 0 0 2 0 0 0 0 0 0 0,
  r 0 12 0 0 0 0 0 0 2 1 0 0 0 0 0 1,
  r 12 0 0 0 0 0 0 0 3 (-4) 0 0 0 0 0 1,
  r (-12) 0 0 0 0 0 0 0 3 (-3) 0 2 0 0 0 2,
  r (-12) 0 0 0 0 0 0 0 3 (-1) 0 0 0 0 0 0,
  r 12 0 0 0 0 0 0 0 4 (-8) 0 0 0 0 0 (-2),
  r 0 (-12) 0 0 0 0 0 0 4 (-5) 0 0 0 0 0 0,
  r 0 12 0 0 0 0 0 0 4 (-2) 0 0 0 0 0 0,
  r (-12) 0 0 0 0 0 0 0 5 (-6) (-4) 0 0 0 0 (-2),
  r 0 (-12) 0 0 0 0 0 0 5 (-6) 0 0 0 0 0 (-2),
  r (-12) 0 0 0 0 0 0 0 5 (-6) 0 0 0 0 0 (-1),
  r 0 12 0 0 0 0 0 0 5 (-4) 0 0 0 0 0 2,
  r 0 (-12) 0 0 0 0 0 0 6 (-9) 0 0 0 0 0 0,
  r (-12) 0 0 0 0 0 0 0 6 (-8) 0 0 0 0 0 0,
  r (-12) 0 0 0 0 0 0 0 6 (-7) 0 0 0 0 0 (-1),
  r 0 (-12) 0 0 0 0 0 0 6 (-6) 0 0 0 0 0 1,
  r 0 (-12) 0 0 0 0 0 0 6 (-4) 0 0 0 0 0 1,
  r 0 (-12) 0 0 0 0 0 0 7 (-11) 0 0 0 0 0 (-1),
  r 12 0 0 0 0 0 0 0 8 (-14) 0 0 0 0 0 (-2),
  r (-12) 0 0 0 0 0 0 0 8 (-11) 0 0 0 0 0 (-1),
  r 12 0 0 0 0 0 0 0 9 (-13) 0 0 0 0 0 (-2),
  r (-12) 0 0 0 0 2 0 0 (-2) 2 0 0 0 0 0 0,
  r (-12) 0 0 0 0 2 0 0 0 2 0 (-2) 0 0 0 0,
  r 12 0 0 0 1 (-1) 1 0 (-4) 6 0 0 0 0 0 0,
  r 0 12 0 0 1 (-1) 1 0 (-1) 2 0 0 0 0 0 0,
  r 0 12 0 0 1 (-1) 1 0 0 (-1) 0 1 (-3) 0 0 0,
  r 12 0 0 0 1 (-1) 1 0 0 1 (-4) 0 0 0 0 0,
  r (-12) 0 0 0 2 (-2) 1 0 0 (-10) 15 0 0 0 0 0,
  r 0 12 0 0 2 (-2) 1 0 0 (-7) 9 0 0 0 0 0,
  r 12 0 0 0 2 (-2) 1 0 0 (-4) 4 0 0 0 0 0,
  r (-12) 0 0 0 2 (-2) 1 0 0 (-2) 0 0 0 0 0 0,
  r (-12) 0 0 0 2 (-2) 1 0 0 (-2) 0 1 0 0 0 0,
  r 12 0 0 0 2 2 2 0 0 2 0 (-2) 0 0 0 0,
  r (-12) 0 1 0 (-2) (-2) (-2) 0 0 1 0 (-1) 0 0 0 0,
  r 0 (-12) 1 0 (-1) (-2) (-1) 0 0 0 0 0 0 0 0 0,
  r (-12) 0 1 0 (-1) (-1) 0 0 0 8 (-15) 0 0 0 0 0,
  r 12 0 1 0 (-1) 0 (-1) 0 (-3) 5 0 0 0 0 0 0,
  r (-12) 0 1 0 0 (-2) 0 0 0 2 0 (-2) 0 0 0 0,
  r 12 0 1 0 0 0 0 0 0 (-2) 0 3 0 0 0 0,
  r 12 0 1 0 0 0 0 0 0 1 0 (-1) 0 0 0 0,
  r 0 12 1 0 1 1 1 0 0 1 0 0 0 0 0 0,
  r (-12) 0 1 0 2 (-2) 2 0 (-3) 3 0 0 0 0 0 0,
  r (-12) 0 1 1 (-2) (-1) (-2) 0 0 0 0 0 0 0 0 0,
  r 12 0 1 3 (-2) (-2) (-2) 0 0 0 0 0 0 0 0 0,
  r (-12) 0 2 (-1) 2 4 2 0 0 0 0 0 0 0 0 0,
  r (-12) 0 2 0 (-2) (-5) (-2) 0 0 0 0 0 0 0 0 0,
  r 0 12 2 0 (-2) 0 (-2) 0 0 5 (-9) 0 0 0 0 0,
  r 12 0 2 0 0 (-2) 0 0 (-4) 4 0 0 0 0 0 0,
  r 12 0 2 0 0 (-2) 0 0 0 (-2) 0 0 2 0 0 0,
  r 12 0 2 0 0 (-2) 0 0 0 (-2) 0 1 5 0 0 0,
  r 0 12 2 0 0 (-2) 0 0 0 (-2) 0 5 (-5) 0 0 0,
  r 0 (-12) 2 0 0 (-2) 0 0 2 (-5) 0 0 0 0 0 0,
  r 0 12 2 0 1 (-3) 1 0 (-6) 7 0 0 0 0 0 0,
  r 12 0 2 1 0 (-3) 0 0 0 0 0 0 0 0 0 0,
  r (-12) 0 3 (-1) 0 (-3) 0 0 0 0 0 0 0 0 0 0,
  r (-12) 0 3 (-1) 0 (-2) 0 0 0 0 0 0 0 0 0 0,
  r 12 0 3 1 (-2) (-6) (-2) 0 0 0 0 0 0 0 0 0,
  r (-12) 0 3 1 0 (-2) 0 0 0 0 0 0 0 0 0 0,
  r 12 0 3 1 2 2 2 0 0 0 0 0 0 0 0 0,
  r 12 0 4 1 2 (-2) 2 0 0 0 0 0 0 0 0 0,
  r 0 (-12) 0 0 1 (-1) 0 0 (-1) 0 0 0 0 0 0 0,
  r 0 12 2 0 (-1) (-1) 0 0 0 (-1) 0 3 0 0 0 0,
  r 0 12 0 0 1 (-1) 0 0 0 1 0 0 0 0 0 0,
  r 12 0 1 (-1) (-2) 1 (-1) 0 0 0 0 0 0 0 0 0,
  r 0 12 0 0 1 (-1) 0 0 0 (-1) 0 0 (-2) 0 0 0,
  r 12 0 0 1 (-4) 2 (-1) 0 0 0 0 0 0 0 0 0,
  r (-12) 0 1 0 2 (-6) 1 0 0 0 0 0 0 0 0 0,
  r (-12) 0 4 0 (-2) (-2) 0 0 0 0 0 0 0 0 0 0,
  r 0 (-12) 0 0 2 (-2) 0 (-1) 0 2 0 0 0 0 0 0,
  r (-12) 0 1 0 2 0 2 0 (-1) 1 0 0 0 0 0 0,
  r 12 0 1 0 2 0 2 0 1 (-1) 0 0 0 0 0 0,
  r 12 0 2 0 2 (-2) 2 0 0 (-2) 0 3 0 0 0 0,
  r (-12) 0 1 (-2) 0 (-1) 0 0 0 0 0 0 0 0 0 0,
  r 0 12 1 0 2 0 2 0 0 4 (-8) 3 0 0 0 0,
  r 0 12 1 0 2 0 2 0 0 (-4) 8 (-3) 0 0 0 0,
  r 0 12 0 0 2 (-2) 1 0 (-8) 11 0 0 0 0 0 0,
  r (-12) 0 2 0 2 4 1 0 0 0 0 0 0 0 0 0,
  r 12 0 2 0 (-2) (-2) (-2) 0 0 (-2) 0 2 0 0 0 0,
  r (-12) 0 1 (-1) 2 4 1 0 0 0 0 0 0 0 0 0,
  r 12 0 1 2 2 0 1 0 0 0 0 0 0 0 0 0,
  r 12 0 3 0 (-2) (-6) (-1) 0 0 0 0 0 0 0 0 0,
  r (-12) 0 5 0 2 0 1 0 0 0 0 0 0 0 0 0,
  r 12 0 0 0 2 0 2 0 (-2) 2 0 0 0 0 0 0,
  r (-12) 0 0 0 2 0 2 0 2 (-2) 0 0 0 0 0 0,
  r 0 12 0 0 2 0 2 0 (-2) 3 0 0 0 0 0 0,
  r 0 12 0 0 2 0 2 0 2 (-3) 0 0 0 0 0 0,
  r 12 0 2 1 2 2 1 0 0 0 0 0 0 0 0 0,
  r 12 0 2 (-1) (-2) (-2) (-1) 0 0 0 0 0 0 0 0 0,
  r (-12) 0 2 0 0 (-2) (-1) 0 0 (-2) 0 3 (-1) 0 0 0,
  r 12 0 1 0 4 0 1 0 0 0 0 0 0 0 0 0,
  r 12 0 1 (-1) 2 (-3) 1 0 0 0 0 0 0 0 0 0,
  r 12 0 2 2 0 (-2) (-1) 0 0 0 0 0 0 0 0 0,
  r 12 0 0 0 0 3 2 0 0 0 0 0 0 0 0 0,
  r 12 0 1 0 0 (-1) (-1) 0 0 (-3) 4 0 0 0 0 0,
  r 12 0 1 0 0 (-2) 1 0 0 (-2) 0 2 0 0 0 0,
  r 12 0 2 0 (-1) (-1) 1 0 0 3 (-7) 0 0 0 0 0,
  r 12 0 1 0 0 (-2) (-1) 0 0 (-2) 0 2 0 0 0 0,
  r 12 0 2 0 0 (-2) 1 0 0 (-5) 6 0 0 0 0 0,
  r 12 0 2 (-1) (-2) 0 1 0 0 0 0 0 0 0 0 0,
  r 0 12 2 0 0 (-2) (-1) 0 0 (-6) 8 0 0 0 0 0,
  r (-12) 0 1 2 0 0 1 0 0 0 0 0 0 0 0 0,
  r 12 0 1 0 2 (-4) (-1) 0 0 0 0 0 0 0 0 0,
  r (-12) 0 2 0 2 (-2) (-1) 0 0 0 0 0 0 0 0 0,
  r (-12) 0 0 1 4 (-4) 2 0 0 0 0 0 0 0 0 0,
  r 0 (-12) 0 0 0 0 2 0 0 0 0 1 0 0 0 0,
  r 12 0 1 0 0 0 1 0 (-10) 3 0 0 0 0 0 0,
  r 12 0 1 0 0 0 (-1) 0 (-10) 3 0 0 0 0 0 0,
  r 0 12 0 0 0 0 1 0 (-3) 4 0 0 0 0 0 0,
  r 12 0 0 0 0 0 1 0 0 (-2) 2 0 0 0 0 0,
  r 0 12 0 0 0 0 1 0 0 (-1) 0 2 0 0 0 0,
  r (-15) 0 0 0 1 (-1) 2 0 (-8) 12 0 0 0 0 0 0,
  r 16 0 0 1 2 (-4) 2 0 0 0 0 0 0 0 0 0,
  r 16 0 0 2 0 0 2 0 0 0 0 0 0 0 0 0,
  r 0 (-16) 0 0 0 0 1 0 3 (-4) 0 0 0 0 0 0,
  r (-16) 0 3 0 0 0 2 0 0 0 0 0 0 0 0 0,
  r 0 (-16) 0 0 0 0 1 0 0 1 0 (-2) 0 0 0 0,
  r (-16) 0 2 (-2) 0 (-2) (-2) 0 0 0 0 0 0 0 0 0,
  r (-16) 0 2 (-1) 0 2 1 0 0 0 0 0 0 0 0 0,
  r 16 0 2 0 (-4) 2 (-1) 0 0 0 0 0 0 0 0 0,
  r (-16) 0 2 0 0 4 1 0 0 0 0 0 0 0 0 0,
  r 16 0 2 (-1) 2 0 0 0 0 0 0 0 0 0 0 0,
  r 16 0 3 0 (-2) 2 (-1) 0 0 0 0 0 0 0 0 0,
  r 0 16 0 0 2 (-2) 1 0 0 4 (-8) 3 0 0 0 0,
  r 0 16 0 0 2 (-2) 1 0 0 (-4) 8 (-3) 0 0 0 0,
  r (-16) 0 0 1 2 2 0 0 0 0 0 0 0 0 0 0,
  r (-16) 0 2 0 2 (-3) 2 0 0 0 0 0 0 0 0 0]

private def x0Series_1 : List Row := [
  r 16 0 1 (-1) (-2) (-2) 0 0 0 0 0 0 0 0 0 0,
  r 16 0 1 (-2) (-2) 2 (-1) 0 0 0 0 0 0 0 0 0,
  r 16 0 1 0 2 (-1) 0 0 0 0 0 0 0 0 0 0,
  r (-16) 0 0 0 2 (-2) 0 0 (-4) 4 0 0 0 0 0 0,
  r 16 0 4 0 0 2 0 0 0 0 0 0 0 0 0 0,
  r 16 0 3 (-1) 0 2 0 0 0 0 0 0 0 0 0 0,
  r 0 (-16) 0 0 1 (-1) 0 0 (-3) 4 0 0 0 0 0 0,
  r (-16) 0 1 (-1) 0 1 0 0 0 0 0 0 0 0 0 0,
  r (-16) 0 2 1 0 (-6) 0 0 0 0 0 0 0 0 0 0,
  r (-16) 0 0 0 0 0 0 0 0 0 0 2 (-2) 0 0 0,
  r 0 (-16) 0 0 0 0 0 0 0 0 0 3 (-5) 0 0 0,
  r 0 (-16) 0 0 0 0 0 0 0 1 0 (-1) 0 0 0 (-1),
  r 16 0 0 0 0 0 0 0 0 1 0 0 0 0 0 (-1),
  r 16 0 0 0 0 0 0 0 0 2 (-4) 0 0 0 0 1,
  r 0 16 0 0 0 0 0 0 0 2 0 0 (-2) 0 0 1,
  r 16 0 0 0 0 0 0 0 0 3 (-8) 3 0 0 0 (-2),
  r 0 16 0 0 0 0 0 0 0 3 0 0 0 0 0 2,
  r 0 16 0 0 0 0 0 0 0 6 (-10) 0 0 0 0 (-2),
  r 0 (-16) 0 0 0 0 0 0 0 7 (-9) 0 0 0 0 2,
  r 0 (-16) 0 0 0 0 0 0 0 7 (-8) 0 0 0 0 2,
  r 16 0 0 0 0 0 0 0 1 (-2) 0 0 0 0 0 (-1),
  r (-16) 0 0 0 0 0 0 0 1 1 0 0 0 0 0 0,
  r 16 0 0 0 0 0 0 0 2 (-5) 0 0 0 0 0 (-1),
  r 0 16 0 0 0 0 0 0 3 (-8) 0 0 0 0 0 (-2),
  r 0 (-16) 0 0 0 0 0 0 3 (-6) 0 0 0 0 0 0,
  r 0 (-16) 0 0 0 0 0 0 4 (-5) 0 0 0 0 0 (-2),
  r 0 (-16) 0 0 0 0 0 0 5 (-5) 0 0 0 0 0 1,
  r (-16) 0 0 0 0 0 0 0 7 (-10) 0 0 0 0 0 (-1),
  r 0 16 0 0 0 0 0 0 8 (-9) 0 0 0 0 0 0,
  r (-16) 0 0 0 0 2 0 0 0 (-1) 0 1 0 0 0 0,
  r 0 16 0 0 1 (-1) 1 0 (-5) 6 0 0 0 0 0 0,
  r 16 0 0 0 1 (-1) 1 0 0 (-4) 6 0 0 0 0 0,
  r 0 16 0 0 1 (-1) 1 0 0 (-1) 0 0 0 (-1) 0 0,
  r (-16) 0 0 0 1 (-1) 1 0 1 (-3) 0 0 0 0 0 0,
  r 16 0 0 0 2 (-2) 1 0 (-5) 5 0 0 0 0 0 0,
  r 16 0 0 0 2 (-2) 1 0 0 (-3) 0 3 0 0 0 0,
  r (-16) 0 0 0 2 (-2) 1 0 0 1 0 (-1) 0 0 0 0,
  r (-16) 0 1 0 0 (-2) 0 0 (-2) 2 0 0 0 0 0 0,
  r 0 (-16) 1 0 0 (-2) 0 0 0 (-4) 8 (-3) 0 0 0 0,
  r (-16) 0 1 0 0 (-2) 0 0 1 (-1) 0 0 0 0 0 0,
  r (-16) 0 1 0 0 0 0 0 (-3) 3 0 0 0 0 0 0,
  r (-16) 0 1 0 0 0 0 0 0 (-1) 0 1 0 0 0 0,
  r (-16) 0 1 0 0 0 0 0 1 (-1) 0 0 0 0 0 0,
  r 16 0 1 1 (-2) (-6) (-2) 0 0 0 0 0 0 0 0 0,
  r (-16) 0 2 (-2) 2 2 2 0 0 0 0 0 0 0 0 0,
  r 16 0 2 0 0 (-2) 0 0 0 (-4) 4 0 0 0 0 0,
  r (-16) 0 2 0 0 (-2) 0 0 0 (-2) 0 2 2 0 0 0,
  r 16 0 2 0 2 0 1 0 0 1 0 0 0 0 0 0,
  r 16 0 2 1 0 1 0 0 0 0 0 0 0 0 0 0,
  r 16 0 3 0 0 (-1) 0 0 0 0 0 0 0 0 0 0,
  r 16 0 3 0 2 1 2 0 0 0 0 0 0 0 0 0,
  r 0 (-16) 1 0 0 (-2) 0 0 0 4 (-8) 3 0 0 0 0,
  r (-16) 0 0 1 (-2) 4 (-1) 0 0 0 0 0 0 0 0 0,
  r 0 16 0 0 1 (-1) 0 0 0 (-1) 0 1 0 0 0 0,
  r 16 0 0 0 1 (-1) 0 0 0 (-1) 0 0 1 0 0 0,
  r 0 16 0 0 1 (-1) 0 0 0 (-2) 2 0 0 0 0 0,
  r 0 (-16) 0 0 1 (-1) 0 0 (-4) 5 0 0 0 0 0 0,
  r 0 (-16) 0 0 1 1 0 0 0 1 0 0 0 0 0 0,
  r 16 0 0 0 2 (-3) 0 0 0 0 0 0 0 0 0 0,
  r 16 0 1 1 2 4 2 0 0 0 0 0 0 0 0 0,
  r 0 16 0 0 1 (-1) 0 0 3 (-6) 0 0 0 0 0 0,
  r 16 0 3 0 4 (-2) 2 0 0 0 0 0 0 0 0 0,
  r (-4) 12 2 (-2) 2 (-2) 2 0 0 0 0 0 0 0 0 0,
  r (-16) 0 2 0 4 (-4) 2 0 0 0 0 0 0 0 0 0,
  r 16 0 1 0 (-2) (-6) (-1) 0 0 0 0 0 0 0 0 0,
  r 16 0 3 1 2 (-2) 1 0 0 0 0 0 0 0 0 0,
  r (-16) 0 1 (-2) 2 2 1 0 0 0 0 0 0 0 0 0,
  r (-16) 0 1 (-1) (-2) (-4) (-1) 0 0 0 0 0 0 0 0 0,
  r (-16) 0 1 0 (-4) (-2) (-1) 0 0 0 0 0 0 0 0 0,
  r 16 0 1 1 0 1 (-1) 0 0 0 0 0 0 0 0 0,
  r 16 0 2 (-1) 0 2 (-1) 0 0 0 0 0 0 0 0 0,
  r (-16) 0 0 2 0 0 (-2) 0 0 0 0 0 0 0 0 0,
  r 16 0 1 1 0 1 1 0 0 0 0 0 0 0 0 0,
  r 16 0 3 0 0 2 (-1) 0 0 0 0 0 0 0 0 0,
  r 16 0 2 0 0 (-3) 1 0 0 0 0 0 0 0 0 0,
  r 16 0 1 0 0 (-1) 1 0 0 (-1) 0 1 0 0 0 0,
  r 16 0 2 0 (-2) (-2) 1 0 0 0 0 0 0 0 0 0,
  r 0 (-16) 0 0 1 (-1) (-1) 0 0 (-1) 0 (-1) 0 0 0 0,
  r 16 0 1 0 0 (-3) (-1) 0 0 0 0 0 0 0 0 0,
  r 16 0 0 0 0 0 1 0 (-2) 2 0 0 0 0 0 0,
  r 20 0 1 1 (-2) 2 (-2) 0 0 0 0 0 0 0 0 0,
  r (-20) 0 1 (-1) 0 0 (-2) 0 0 0 0 0 0 0 0 0,
  r (-20) 0 1 0 (-2) 0 2 0 0 0 0 0 0 0 0 0,
  r 20 0 0 0 0 0 1 0 0 2 (-2) 0 0 0 0 0,
  r (-20) 0 2 1 0 (-2) (-2) 0 0 0 0 0 0 0 0 0,
  r (-20) 0 0 0 1 (-1) 2 0 (-5) 7 0 0 0 0 0 0,
  r (-20) 0 1 (-1) 0 (-2) (-2) 0 0 0 0 0 0 0 0 0,
  r (-20) 0 0 0 2 (-2) 2 0 0 (-2) 0 2 0 0 0 0,
  r 20 0 3 0 0 (-2) 1 0 0 0 0 0 0 0 0 0,
  r 20 0 0 0 4 2 2 0 0 0 0 0 0 0 0 0,
  r 0 20 0 0 0 0 1 0 5 (-8) 0 0 0 0 0 0,
  r 20 0 1 0 0 (-6) (-1) 0 0 0 0 0 0 0 0 0,
  r 20 0 0 1 0 4 1 0 0 0 0 0 0 0 0 0,
  r (-20) 0 1 0 0 (-1) (-1) 0 0 (-2) 2 0 0 0 0 0,
  r (-20) 0 0 0 2 (-4) 0 0 0 0 0 0 0 0 0 0,
  r 0 (-20) 1 0 (-1) 1 (-1) 0 0 1 0 0 0 0 0 0,
  r 20 0 2 (-1) (-2) 2 (-1) 0 0 0 0 0 0 0 0 0,
  r (-20) 0 3 0 0 (-2) 0 0 0 0 0 0 0 0 0 0,
  r 20 0 0 0 0 6 0 0 0 0 0 0 0 0 0 0,
  r (-20) 0 0 2 0 (-4) 0 0 0 0 0 0 0 0 0 0,
  r 0 20 0 0 0 0 0 0 0 0 0 0 0 1 (-2) (-2),
  r 0 (-20) 0 0 0 0 0 0 0 0 0 0 0 2 0 1,
  r (-20) 0 0 0 0 0 0 0 0 1 0 (-5) 0 0 0 (-2),
  r 0 (-20) 0 0 0 0 0 0 0 1 0 (-3) 0 0 0 (-1),
  r 20 0 0 0 0 0 0 0 0 1 0 (-2) 0 0 0 (-2),
  r 0 20 0 0 0 0 0 0 0 1 0 (-2) 5 0 0 2,
  r (-20) 0 0 0 0 0 0 0 0 2 0 (-5) 0 0 0 (-2),
  r (-20) 0 0 0 0 0 0 0 0 2 0 0 0 0 0 0,
  r 20 0 0 0 0 0 0 0 0 3 0 (-4) 0 0 0 0,
  r (-20) 0 0 0 0 0 0 0 0 4 0 (-4) 0 0 0 2,
  r 0 (-20) 0 0 0 0 0 0 0 5 (-10) 0 0 0 0 (-2),
  r 0 (-20) 0 0 0 0 0 0 0 6 (-9) 0 0 0 0 0,
  r 0 (-20) 0 0 0 0 0 0 3 (-4) 0 0 0 0 0 (-2),
  r (-20) 0 0 0 0 0 0 0 4 (-5) 0 0 0 0 0 (-1),
  r 0 (-20) 0 0 0 0 0 0 5 (-3) 0 0 0 0 0 1,
  r 0 20 0 0 0 0 0 0 6 (-10) 0 0 0 0 0 (-1),
  r 0 20 0 0 0 0 0 0 9 (-11) 0 0 0 0 0 (-1),
  r 0 20 0 0 0 0 0 0 9 (-9) 0 0 0 0 0 (-1),
  r (-20) 0 0 0 1 (-1) 0 0 0 0 0 0 0 0 0 0,
  r 0 20 0 0 1 (-1) 1 0 (-2) 1 0 0 0 0 0 0,
  r 0 20 0 0 1 (-1) 1 0 1 (-2) 0 0 0 0 0 0,
  r 20 0 0 3 (-2) (-2) (-2) 0 0 0 0 0 0 0 0 0,
  r 20 0 1 0 (-2) (-2) (-2) 0 0 (-2) 0 3 0 0 0 0,
  r (-20) 0 1 0 (-1) (-1) (-1) 0 20 (-20) 0 0 0 0 0 0,
  r 0 20 1 0 0 (-2) 0 0 17 (-16) 0 (-2) 0 0 0 0,
  r 20 0 1 0 0 0 0 0 (-1) 1 0 0 0 0 0 0,
  r 0 (-20) 1 0 0 0 0 0 0 (-4) 8 (-3) 0 0 0 0,
  r 0 20 1 0 1 (-1) 1 0 0 (-1) 0 0 0 0 0 0,
  r 0 (-20) 1 0 3 0 3 0 0 0 0 0 0 0 0 0,
  r (-20) 0 1 1 (-2) (-3) (-2) 0 0 0 0 0 0 0 0 0,
  r 0 (-20) 2 0 (-1) (-1) (-1) 0 0 (-1) 0 0 0 0 0 0,
  r 20 0 2 0 0 (-2) (-1) 0 0 (-2) 0 4 (-5) 0 0 0,
  r 20 0 2 0 0 (-2) 0 0 (-2) 2 0 0 0 0 0 0,
  r (-20) 0 2 0 0 (-2) 0 0 0 (-4) 8 (-3) 0 0 0 0,
  r 20 0 2 1 (-2) (-6) (-2) 0 0 0 0 0 0 0 0 0,
  r (-20) 0 4 (-1) (-2) (-2) (-2) 0 0 0 0 0 0 0 0 0,
  r 0 (-20) 1 0 0 0 0 0 0 4 (-8) 3 0 0 0 0,
  r (-20) 0 0 0 2 (-2) 0 0 0 (-2) 0 2 0 0 0 0,
  r 20 0 1 0 0 (-1) 0 0 0 (-2) 2 0 0 0 0 0,
  r 20 0 0 0 2 (-2) 1 0 0 (-1) 0 1 0 0 0 0,
  r 20 0 4 1 2 0 2 0 0 0 0 0 0 0 0 0,
  r 20 0 1 (-1) 2 1 2 0 0 0 0 0 0 0 0 0,
  r 0 20 1 0 1 (-2) 0 0 0 0 0 0 0 0 0 0,
  r 20 0 1 0 (-2) 0 (-2) 0 (-10) 3 0 0 0 0 0 0,
  r 20 0 0 1 4 (-2) 1 0 0 0 0 0 0 0 0 0,
  r 20 0 0 0 2 3 1 0 0 0 0 0 0 0 0 0,
  r 20 0 2 0 4 (-2) 1 0 0 0 0 0 0 0 0 0,
  r (-20) 0 1 (-2) (-2) (-2) (-1) 0 0 0 0 0 0 0 0 0,
  r 20 0 1 (-1) (-4) 2 (-2) 0 0 0 0 0 0 0 0 0,
  r 20 0 2 (-1) 2 (-2) 1 0 0 0 0 0 0 0 0 0,
  r 20 0 2 0 0 (-1) 1 0 0 0 0 0 0 0 0 0,
  r 20 0 2 1 (-2) 0 1 0 0 0 0 0 0 0 0 0,
  r 20 0 2 0 0 (-3) (-1) 0 0 0 0 0 0 0 0 0,
  r (-20) 0 1 0 (-2) 1 1 0 0 0 0 0 0 0 0 0,
  r 0 20 0 0 0 0 1 0 0 0 0 0 (-1) 0 0 0,
  r 20 0 1 (-2) 0 0 (-1) 0 0 0 0 0 0 0 0 0,
  r 20 0 2 0 0 (-2) (-1) 0 (-3) 3 0 0 0 0 0 0,
  r (-20) 0 0 0 1 (-1) 2 0 0 (-1) 0 0 1 0 0 0,
  r 20 0 2 (-2) 0 (-2) 1 0 0 0 0 0 0 0 0 0,
  r 0 20 1 0 (-1) 0 1 0 0 0 0 0 0 0 0 0,
  r 24 0 0 0 0 0 1 0 2 (-2) 0 0 0 0 0 0,
  r 0 (-24) 0 0 1 (-1) 2 0 0 (-1) 0 (-1) 0 0 0 0,
  r 0 24 0 0 1 (-1) 2 0 0 (-1) 0 1 0 0 0 0,
  r (-24) 0 1 (-1) 0 (-4) (-1) 0 0 0 0 0 0 0 0 0,
  r (-24) 0 2 0 0 (-2) (-2) 0 (-3) 3 0 0 0 0 0 0,
  r 24 0 2 1 2 (-4) 1 0 0 0 0 0 0 0 0 0,
  r 24 0 1 (-1) 2 2 0 0 0 0 0 0 0 0 0 0,
  r 24 0 2 (-1) 2 (-1) 2 0 0 0 0 0 0 0 0 0,
  r 24 0 0 2 2 2 2 0 0 0 0 0 0 0 0 0,
  r 24 0 0 1 0 3 0 0 0 0 0 0 0 0 0 0,
  r (-24) 0 0 0 0 0 0 0 0 0 0 0 0 0 2 2,
  r (-24) 0 0 0 0 0 0 0 0 0 0 0 5 0 0 2,
  r 24 0 0 0 0 0 0 0 0 0 2 0 0 0 0 0,
  r 0 (-24) 0 0 0 0 0 0 0 2 (-7) 0 0 0 0 (-2),
  r (-24) 0 0 0 0 0 0 0 0 2 0 (-2) 0 0 0 2,
  r 0 24 0 0 0 0 0 0 0 4 (-8) 1 5 0 0 2,
  r (-24) 0 0 0 0 0 0 0 0 4 (-6) 0 0 0 0 (-2),
  r 0 (-24) 0 0 0 0 0 0 0 5 (-6) 0 0 0 0 2,
  r 0 24 0 0 0 0 0 0 7 (-8) 0 0 0 0 0 0,
  r 24 0 0 0 0 0 0 0 8 (-16) 0 0 0 0 0 (-2),
  r 24 0 0 0 0 0 0 0 8 (-12) 0 0 0 0 0 (-2),
  r (-24) 0 0 1 2 3 2 0 0 0 0 0 0 0 0 0,
  r 24 0 0 2 (-2) (-4) (-2) 0 0 0 0 0 0 0 0 0,
  r 0 (-24) 1 0 (-1) 1 (-1) 0 (-18) 17 0 0 0 0 0 0,
  r 24 0 1 0 0 (-2) 0 0 2 (-2) 0 0 0 0 0 0,
  r (-24) 0 1 0 0 0 0 0 0 (-2) 0 2 0 0 0 0,
  r (-24) 0 1 0 2 (-2) 2 0 0 (-2) 0 2 0 0 0 0,
  r (-24) 0 2 1 2 1 2 0 0 0 0 0 0 0 0 0,
  r 24 0 2 2 (-2) (-4) (-2) 0 0 0 0 0 0 0 0 0,
  r (-24) 0 2 2 0 (-4) 0 0 0 0 0 0 0 0 0 0,
  r (-24) 0 3 0 0 (-3) 0 0 0 0 0 0 0 0 0 0,
  r 24 0 5 0 0 0 0 0 0 0 0 0 0 0 0 0,
  r 12 (-12) 0 0 0 0 0 0 2 (-3) 0 0 0 0 0 1,
  r (-24) 0 4 (-1) 2 0 2 0 0 0 0 0 0 0 0 0,
  r 0 (-24) 2 0 (-1) (-1) (-1) 0 0 (-1) 0 2 0 0 0 0,
  r 24 0 2 0 (-2) (-6) (-1) 0 0 0 0 0 0 0 0 0,
  r 24 0 2 0 2 1 1 0 0 0 0 0 0 0 0 0,
  r (-24) 0 2 0 (-4) (-2) (-1) 0 0 0 0 0 0 0 0 0,
  r (-24) 0 0 0 2 0 2 0 0 1 0 (-1) 0 0 0 0,
  r 24 0 0 0 2 0 2 0 0 (-1) 0 1 0 0 0 0]

private def x0Series_2 : List Row := [
  r (-24) 0 1 (-2) 2 0 1 0 0 0 0 0 0 0 0 0,
  r (-24) 0 0 1 0 (-4) 1 0 0 0 0 0 0 0 0 0,
  r 24 0 1 (-2) 0 (-2) 1 0 0 0 0 0 0 0 0 0,
  r 0 24 0 0 2 (-2) (-1) 0 (-5) 6 0 0 0 0 0 0,
  r 28 0 1 1 2 (-4) 2 0 0 0 0 0 0 0 0 0,
  r 0 (-28) 0 0 0 0 2 0 0 (-4) 8 (-3) 0 0 0 0,
  r 0 (-28) 0 0 0 0 2 0 0 4 (-8) 3 0 0 0 0,
  r (-28) 0 0 0 1 (-1) 2 0 0 0 (-2) 0 0 0 0 0,
  r 28 0 2 (-1) (-2) 0 (-2) 0 0 0 0 0 0 0 0 0,
  r 28 0 0 0 2 4 0 0 0 0 0 0 0 0 0 0,
  r 12 (-16) 0 0 1 (-1) 1 0 0 (-1) 0 0 (-2) 0 0 0,
  r 28 0 1 1 2 (-4) 0 0 0 0 0 0 0 0 0 0,
  r 28 0 1 (-1) 2 (-2) 0 0 0 0 0 0 0 0 0 0,
  r (-28) 0 0 0 0 0 0 0 3 (-7) 4 0 0 0 0 0,
  r (-28) 0 0 0 0 0 0 0 0 0 0 0 0 2 0 2,
  r 28 0 0 0 0 0 0 0 0 0 0 4 (-5) 0 0 2,
  r 0 (-28) 0 0 0 0 0 0 0 1 (-6) 0 0 0 0 (-2),
  r 0 28 0 0 0 0 0 0 0 1 0 (-1) 0 0 0 1,
  r 0 (-28) 0 0 0 0 0 0 0 3 0 0 (-2) 0 0 2,
  r (-28) 0 0 0 0 0 0 0 0 4 0 0 (-2) 0 0 2,
  r 12 (-16) 0 0 0 0 0 0 0 4 0 0 0 0 0 0,
  r 0 (-28) 0 0 0 0 0 0 0 6 (-7) 0 0 0 0 2,
  r 0 28 0 0 0 0 0 0 0 6 0 0 0 0 0 1,
  r (-12) (-16) 0 0 0 0 0 0 1 (-4) 0 0 0 0 0 (-2),
  r 28 0 0 0 0 0 0 0 3 (-6) 0 0 0 0 0 (-1),
  r (-28) 0 0 0 0 0 0 0 3 (-4) 0 0 0 0 0 (-1),
  r 0 (-28) 0 0 0 0 0 0 4 (-2) 0 0 0 0 0 1,
  r 0 28 0 0 0 0 0 0 8 (-10) 0 0 0 0 0 (-1),
  r 0 28 0 0 0 0 0 0 8 (-8) 0 0 0 0 0 (-1),
  r 28 0 0 0 2 (-2) 1 0 0 (-2) 0 3 0 0 0 0,
  r (-28) 0 1 0 (-2) (-2) (-2) 0 (-3) 3 0 0 0 0 0 0,
  r 28 0 1 0 0 (-2) 0 0 0 1 0 (-1) 0 0 0 0,
  r 28 0 1 0 2 3 2 0 0 0 0 0 0 0 0 0,
  r 28 0 1 1 0 (-3) 0 0 0 0 0 0 0 0 0 0,
  r 28 0 2 (-2) 0 0 0 0 0 0 0 0 0 0 0 0,
  r 28 0 3 0 (-2) (-2) 0 0 0 0 0 0 0 0 0 0,
  r 28 0 1 0 2 (-3) 0 0 0 0 0 0 0 0 0 0,
  r (-28) 0 0 2 0 2 0 0 0 0 0 0 0 0 0 0,
  r (-28) 0 4 0 2 (-4) 2 0 0 0 0 0 0 0 0 0,
  r 28 0 1 1 4 (-2) 2 0 0 0 0 0 0 0 0 0,
  r (-12) (-16) 0 0 0 0 1 0 0 (-9) 17 0 0 0 0 0,
  r (-28) 0 1 1 2 1 1 0 0 0 0 0 0 0 0 0,
  r 28 0 3 1 2 0 1 0 0 0 0 0 0 0 0 0,
  r 16 12 1 0 0 (-1) 1 0 0 (-3) 4 0 0 0 0 0,
  r 28 0 1 1 0 (-1) 1 0 0 0 0 0 0 0 0 0,
  r 28 0 1 (-2) 0 (-2) (-1) 0 0 0 0 0 0 0 0 0,
  r 28 0 1 0 0 4 (-1) 0 0 0 0 0 0 0 0 0,
  r (-28) 0 0 0 0 4 2 0 0 0 0 0 0 0 0 0,
  r 28 0 2 0 (-4) 2 (-2) 0 0 0 0 0 0 0 0 0,
  r 32 0 0 0 0 1 (-2) 0 0 0 0 0 0 0 0 0,
  r (-32) 0 0 0 4 (-2) 0 0 0 0 0 0 0 0 0 0,
  r 0 32 0 0 2 (-2) 1 (-1) 0 2 0 0 0 0 0 0,
  r (-16) 16 0 0 0 0 0 0 0 1 0 (-4) 0 0 0 0,
  r (-16) 16 0 0 0 0 0 0 0 2 2 0 0 0 0 2,
  r 0 32 0 0 0 0 0 0 0 0 0 0 1 0 0 2,
  r 12 (-20) 0 0 0 0 0 0 0 2 (-6) 0 0 0 0 (-2),
  r 12 20 0 0 0 0 0 0 0 4 (-8) 0 0 0 0 0,
  r 32 0 0 0 0 0 0 0 0 4 (-4) 0 0 0 0 0,
  r (-20) 12 0 0 0 0 0 0 0 5 (-8) 0 0 0 0 (-2),
  r 0 (-32) 0 0 0 0 0 0 0 5 (-2) 0 0 0 0 2,
  r 0 32 0 0 0 0 0 0 0 8 (-15) 0 0 0 0 (-1),
  r 32 0 0 0 0 0 0 0 2 (-6) 0 0 0 0 0 (-2),
  r 0 32 0 0 0 0 0 0 5 (-6) 0 0 0 0 0 0,
  r (-32) 0 0 0 0 0 0 0 5 (-5) 0 0 0 0 0 2,
  r 32 0 0 0 0 0 0 0 8 (-12) 0 0 0 0 0 0,
  r 20 12 0 0 0 0 0 1 0 (-4) 0 0 0 0 0 0,
  r 20 12 0 0 1 (-1) 1 0 0 (-1) 0 (-2) 4 0 0 0,
  r 0 (-32) 0 0 1 (-1) 1 0 0 (-1) 0 (-1) 2 0 0 0,
  r 0 (-32) 0 0 1 (-1) 1 0 0 (-1) 0 0 0 2 0 0,
  r 0 32 0 0 2 (-2) 1 0 0 (-8) 11 0 0 0 0 0,
  r 32 0 0 0 2 (-2) 1 0 0 (-2) 0 0 2 0 0 0,
  r 0 (-32) 1 0 0 (-2) 0 0 20 (-21) 0 0 0 0 0 0,
  r (-32) 0 3 0 2 (-1) 2 0 0 0 0 0 0 0 0 0,
  r 12 (-20) 0 0 2 (-2) 0 0 0 (-9) 13 0 0 0 0 0,
  r 32 0 2 2 2 (-2) 2 0 0 0 0 0 0 0 0 0,
  r 32 0 1 2 2 (-2) 1 0 0 0 0 0 0 0 0 0,
  r 0 (-32) 2 0 (-1) (-1) (-2) 0 0 (-1) 0 2 0 0 0 0,
  r (-32) 0 2 0 2 (-1) 1 0 0 0 0 0 0 0 0 0,
  r (-32) 0 0 0 2 0 2 0 (-1) 1 0 0 0 0 0 0,
  r 32 0 0 0 2 0 2 0 1 (-1) 0 0 0 0 0 0,
  r (-32) 0 3 (-1) 2 0 1 0 0 0 0 0 0 0 0 0,
  r 12 20 2 0 0 (-2) 1 0 0 (-6) 8 0 0 0 0 0,
  r 32 0 0 2 2 0 1 0 0 0 0 0 0 0 0 0,
  r (-20) (-12) 0 0 0 0 1 0 0 (-8) 15 0 0 0 0 0,
  r 32 0 4 0 0 0 (-1) 0 0 0 0 0 0 0 0 0,
  r (-32) 0 1 1 0 2 (-1) 0 0 0 0 0 0 0 0 0,
  r (-32) 0 0 0 0 0 1 0 3 (-5) 0 0 0 0 0 0,
  r (-13) 22 0 0 1 (-1) 2 0 0 (-1) 0 (-2) 5 0 0 0,
  r 36 0 0 0 2 (-2) (-2) 0 0 0 0 0 0 0 0 0,
  r (-36) 0 0 0 2 0 (-2) 0 0 0 0 0 0 0 0 0,
  r 36 0 0 1 0 (-2) 2 0 0 0 0 0 0 0 0 0,
  r 36 0 2 0 0 2 2 0 0 0 0 0 0 0 0 0,
  r (-36) 0 1 (-2) (-2) 0 (-2) 0 0 0 0 0 0 0 0 0,
  r 0 (-36) 0 0 1 (-1) 1 0 0 1 0 0 0 0 0 0,
  r 24 (-12) 0 0 0 0 0 0 0 2 (-5) 0 0 0 0 (-2),
  r 36 0 0 0 0 0 0 0 0 3 (-6) 0 0 0 0 (-1),
  r 0 36 0 0 0 0 0 0 0 3 (-2) 0 0 0 0 0,
  r (-36) 0 0 0 0 0 0 0 0 5 0 (-3) 0 0 0 2,
  r (-24) 12 0 0 0 0 0 0 0 6 (-5) 0 0 0 0 2,
  r 12 (-24) 0 0 0 0 0 0 1 (-2) 0 0 0 0 0 (-2),
  r 0 36 0 0 0 0 0 0 4 (-3) 0 0 0 0 0 2,
  r (-36) 0 0 0 0 0 0 0 6 (-9) 0 0 0 0 0 (-1),
  r 0 36 0 0 0 0 0 0 6 (-7) 0 0 0 0 0 0,
  r 0 36 0 0 0 0 0 0 7 (-7) 0 0 0 0 0 (-1),
  r 0 36 0 0 1 (-1) 1 0 (-2) 3 0 0 0 0 0 0,
  r 36 0 1 (-1) (-2) (-3) (-2) 0 0 0 0 0 0 0 0 0,
  r (-36) 0 1 3 0 (-2) 0 0 0 0 0 0 0 0 0 0,
  r (-36) 0 2 (-1) 0 (-1) 0 0 0 0 0 0 0 0 0 0,
  r (-36) 0 0 3 0 (-2) 0 0 0 0 0 0 0 0 0 0,
  r (-36) 0 2 (-2) 2 0 2 0 0 0 0 0 0 0 0 0,
  r 12 24 1 0 1 0 0 0 0 0 0 0 0 0 0 0,
  r (-36) 0 2 1 (-2) (-2) (-1) 0 0 0 0 0 0 0 0 0,
  r 0 36 0 0 2 0 2 0 0 4 (-8) 3 0 0 0 0,
  r 0 36 0 0 2 0 2 0 0 (-4) 8 (-3) 0 0 0 0,
  r 20 (-16) 2 0 (-1) (-1) (-1) 0 0 3 (-7) 0 0 0 0 0,
  r 24 (-12) 0 2 (-2) 0 (-1) 0 0 0 0 0 0 0 0 0,
  r 36 0 1 (-2) 0 0 1 0 0 0 0 0 0 0 0 0,
  r 36 0 1 0 0 (-3) 1 0 0 0 0 0 0 0 0 0,
  r (-20) (-16) 0 0 0 0 2 0 0 (-1) 2 0 0 0 0 0,
  r 0 40 0 0 1 (-1) 2 0 0 (-1) 0 2 0 0 0 0,
  r 40 0 4 0 (-2) (-2) (-1) 0 0 0 0 0 0 0 0 0,
  r 40 0 0 0 0 3 1 0 0 0 0 0 0 0 0 0,
  r 40 0 2 0 0 4 0 0 0 0 0 0 0 0 0 0,
  r 40 0 1 1 (-2) 2 0 0 0 0 0 0 0 0 0 0,
  r 40 0 0 0 0 0 0 0 3 (-5) 0 2 0 0 0 0,
  r (-40) 0 0 0 0 0 0 0 0 5 (-3) 0 0 0 0 2,
  r (-40) 0 0 0 0 0 0 0 1 (-2) 0 0 0 0 0 1,
  r 20 (-20) 0 0 0 0 0 0 2 (-4) 0 0 0 0 0 0,
  r 0 (-40) 0 0 0 0 0 0 3 (-1) 0 0 0 0 0 1,
  r 0 (-40) 0 0 0 0 0 0 4 (-4) 0 0 0 0 0 1,
  r (-40) 0 0 0 0 0 0 0 5 (-9) 0 0 0 0 0 (-2),
  r 0 (-40) 0 0 0 0 0 0 9 (-12) 0 0 0 0 0 (-2),
  r 40 0 5 0 2 (-2) 2 0 0 0 0 0 0 0 0 0,
  r (-12) (-28) 0 0 0 0 0 0 0 4 (-8) 1 5 0 0 (-2),
  r 40 0 0 0 0 0 0 0 0 7 (-13) 0 0 0 0 0,
  r (-40) 0 0 0 4 (-1) 2 0 0 0 0 0 0 0 0 0,
  r 40 0 1 2 (-2) (-4) (-2) 0 0 0 0 0 0 0 0 0,
  r 12 28 2 0 (-1) (-1) (-1) 0 0 (-1) 0 3 0 0 0 0,
  r 0 (-40) 0 0 3 0 2 0 0 0 0 0 0 0 0 0,
  r 24 16 2 0 0 (-2) (-1) 0 0 (-5) 6 0 0 0 0 0,
  r 40 0 2 0 (-4) 0 (-1) 0 0 0 0 0 0 0 0 0,
  r (-40) 0 1 0 4 (-4) 2 0 0 0 0 0 0 0 0 0,
  r (-40) 0 2 1 0 (-4) 1 0 0 0 0 0 0 0 0 0,
  r (-40) 0 2 1 0 (-4) (-1) 0 0 0 0 0 0 0 0 0,
  r 40 0 2 0 2 0 (-1) 0 0 0 0 0 0 0 0 0,
  r 44 0 2 0 2 2 0 0 0 0 0 0 0 0 0 0,
  r 44 0 1 (-1) 2 (-4) 1 0 0 0 0 0 0 0 0 0,
  r (-44) 0 3 0 2 (-2) 0 0 0 0 0 0 0 0 0 0,
  r (-44) 0 0 1 0 4 0 0 0 0 0 0 0 0 0 0,
  r (-44) 0 1 2 0 (-4) 0 0 0 0 0 0 0 0 0 0,
  r 44 0 0 0 0 0 0 0 0 1 (-3) 0 0 0 0 (-2),
  r 0 44 0 0 0 0 0 0 0 5 (-8) 0 0 0 0 0,
  r 0 44 0 0 0 0 0 0 0 6 (-11) 0 0 0 0 (-2),
  r (-20) 24 0 0 0 0 0 0 1 0 0 0 0 0 0 2,
  r 20 (-24) 0 0 0 0 0 0 8 (-13) 0 0 0 0 0 1,
  r 44 0 0 0 2 (-2) 1 0 (-2) 2 0 0 0 0 0 0,
  r (-44) 0 1 (-1) 0 (-3) 0 0 0 0 0 0 0 0 0 0,
  r 44 0 3 (-1) (-2) (-1) (-2) 0 0 0 0 0 0 0 0 0,
  r 32 (-12) 0 0 0 0 0 0 1 (-3) 0 0 0 0 0 0,
  r 12 32 0 0 0 0 0 0 5 (-10) 0 0 0 0 0 (-2),
  r 20 (-24) 0 0 0 0 0 0 0 9 (-17) 0 0 0 0 0,
  r (-44) 0 0 1 (-2) 0 0 0 0 0 0 0 0 0 0 0,
  r (-32) (-12) 0 0 1 (-1) (-1) 0 0 0 (-2) 0 0 0 0 0,
  r 44 0 0 0 0 0 1 0 0 (-1) 0 1 0 0 0 0,
  r 0 48 0 0 2 (-2) 2 0 (-5) 6 0 0 0 0 0 0,
  r (-48) 0 1 0 0 (-1) 2 0 0 0 0 0 0 0 0 0,
  r (-48) 0 0 0 2 (-2) 2 0 (-3) 3 0 0 0 0 0 0,
  r 48 0 1 1 0 (-4) (-1) 0 0 0 0 0 0 0 0 0,
  r 0 (-48) 1 0 1 (-2) 1 0 0 0 0 0 0 0 0 0,
  r (-48) 0 3 0 0 2 1 0 0 0 0 0 0 0 0 0,
  r (-48) 0 2 0 0 (-2) (-1) 0 0 (-2) 0 0 5 0 0 0,
  r (-48) 0 2 1 0 2 0 0 0 0 0 0 0 0 0 0,
  r 48 0 1 (-1) 0 4 0 0 0 0 0 0 0 0 0 0,
  r 32 (-16) 0 0 0 0 0 0 0 0 0 0 3 0 0 1,
  r (-48) 0 0 0 0 0 0 0 0 0 0 2 (-5) 0 0 2,
  r (-36) 12 0 0 0 0 0 0 0 0 0 4 0 0 0 2,
  r (-20) (-28) 0 0 0 0 0 0 0 1 0 3 0 0 0 2,
  r 20 (-28) 0 0 0 0 0 0 0 5 (-7) 0 0 0 0 0,
  r 16 32 0 0 0 0 0 0 0 7 (-13) 0 0 0 0 (-2),
  r (-12) (-36) 0 0 0 0 0 0 3 (-5) 0 0 0 0 0 1,
  r 32 (-16) 0 0 0 0 0 0 4 (-2) 0 0 0 0 0 2,
  r (-32) 16 0 0 1 (-1) 1 0 0 (-1) 0 0 3 0 0 0,
  r (-12) (-36) 0 0 1 (-1) 1 0 0 (-1) 0 3 0 0 0 0,
  r (-48) 0 3 (-1) 2 2 2 0 0 0 0 0 0 0 0 0,
  r 48 0 4 0 0 (-4) 0 0 0 0 0 0 0 0 0 0,
  r 48 0 3 (-1) 2 (-2) 2 0 0 0 0 0 0 0 0 0,
  r (-48) 0 0 1 (-2) (-1) (-2) 0 0 0 0 0 0 0 0 0,
  r (-48) 0 1 (-2) 2 (-2) 2 0 0 0 0 0 0 0 0 0,
  r (-16) 32 0 0 0 0 1 0 0 2 (-4) 0 0 0 0 0,
  r 48 0 0 0 2 2 (-1) 0 0 0 0 0 0 0 0 0,
  r 48 0 0 1 0 2 2 0 0 0 0 0 0 0 0 0,
  r (-51) 0 1 0 2 0 3 0 0 0 0 0 0 0 0 0,
  r (-51) 0 1 0 0 2 (-2) 0 0 0 0 0 0 0 0 0,
  r 52 0 0 0 0 1 2 0 0 0 0 0 0 0 0 0,
  r 52 0 1 1 0 0 2 0 0 0 0 0 0 0 0 0,
  r 0 (-52) 1 0 1 0 1 0 0 0 0 0 0 0 0 0,
  r (-52) 0 2 0 (-2) (-4) 0 0 0 0 0 0 0 0 0 0,
  r 52 0 1 0 (-4) 0 0 0 0 0 0 0 0 0 0 0,
  r (-52) 0 0 0 0 0 0 0 0 1 1 0 0 0 0 2,
  r 52 0 0 0 0 0 0 0 9 (-9) 0 0 0 0 0 0]

private def x0Series_3 : List Row := [
  r 0 (-52) 0 0 1 (-1) 1 0 2 (-4) 0 (-3) 0 0 0 0,
  r (-52) 0 0 0 2 6 2 0 0 0 0 0 0 0 0 0,
  r (-52) 0 1 0 (-2) (-2) (-2) 0 0 (-2) 0 2 0 0 0 0,
  r (-52) 0 1 0 0 (-2) 0 0 0 (-2) 0 3 0 0 0 0,
  r 12 40 0 0 0 0 0 0 5 (-6) 0 0 0 0 0 2,
  r (-52) 0 0 0 2 (-2) 0 0 (-3) 3 0 0 0 0 0 0,
  r 16 36 0 0 1 (-1) 0 0 0 (-1) 0 0 2 0 0 0,
  r 52 0 0 1 0 (-1) 0 0 0 0 0 0 0 0 0 0,
  r 52 0 0 0 0 0 1 0 3 (-5) 0 2 0 0 0 0,
  r (-52) 0 1 1 0 (-4) 1 0 0 0 0 0 0 0 0 0,
  r 52 0 1 0 0 (-4) (-2) 0 0 0 0 0 0 0 0 0,
  r 55 0 1 1 0 (-2) 2 0 0 0 0 0 0 0 0 0,
  r (-56) 0 0 0 4 (-4) 1 0 0 0 0 0 0 0 0 0,
  r (-36) (-20) 0 0 0 0 1 0 (-3) 7 (-4) 0 0 0 0 0,
  r 20 (-36) 0 0 0 0 0 0 0 1 (-5) 0 0 0 0 (-2),
  r (-56) 0 0 0 0 0 0 0 0 1 0 0 1 0 0 2,
  r 56 0 0 0 0 0 0 0 0 6 0 0 0 0 0 0,
  r 44 (-12) 0 0 0 0 0 0 4 (-4) 0 0 0 0 0 2,
  r 16 40 0 0 0 0 0 1 0 (-4) 0 0 0 0 0 (-2),
  r (-56) 0 3 0 0 (-6) 0 0 0 0 0 0 0 0 0 0,
  r (-56) 0 3 1 0 (-4) 0 0 0 0 0 0 0 0 0 0,
  r 0 56 0 0 1 (-1) 1 0 0 (-1) 0 (-1) 1 0 0 0,
  r 56 0 1 2 (-2) (-2) (-1) 0 0 0 0 0 0 0 0 0,
  r (-44) (-12) 2 0 0 (-2) (-1) 0 (-6) 8 0 0 0 0 0 0,
  r (-56) 0 3 0 0 (-4) 1 0 0 0 0 0 0 0 0 0,
  r 59 0 0 0 0 0 1 0 0 1 0 (-1) 0 0 0 0,
  r 0 60 0 0 1 (-1) 2 0 0 (-2) 2 0 0 0 0 0,
  r 60 0 2 (-1) 0 (-4) 0 0 0 0 0 0 0 0 0 0,
  r (-60) 0 2 0 0 (-2) 0 0 0 (-2) 0 3 (-1) 0 0 0,
  r (-60) 0 0 0 0 3 0 0 0 0 0 0 0 0 0 0,
  r 44 16 0 0 0 0 0 0 0 2 0 (-4) 0 0 0 0,
  r 36 24 0 0 0 0 0 0 0 6 (-11) 0 0 0 0 0,
  r 24 (-36) 0 0 0 0 0 0 0 6 (-6) 0 0 0 0 2,
  r 24 (-36) 2 0 0 (-2) 0 0 0 (-2) 0 4 (-3) 0 0 0,
  r 0 60 0 0 0 0 0 0 0 0 0 0 3 0 0 2,
  r 60 0 0 0 0 0 0 0 0 2 0 0 (-2) 0 0 0,
  r 12 48 0 0 0 0 0 0 0 5 0 (-2) 0 0 0 2,
  r 12 48 0 0 0 0 0 0 3 (-3) 0 0 0 0 0 1,
  r 48 (-12) 0 0 0 0 0 0 4 (-7) 0 0 0 0 0 (-1),
  r 12 48 0 0 0 0 0 0 7 (-9) 0 0 0 0 0 (-1),
  r (-60) 0 4 0 2 2 2 0 0 0 0 0 0 0 0 0,
  r (-60) 0 2 0 (-2) (-3) (-2) 0 0 0 0 0 0 0 0 0,
  r 0 60 0 0 2 (-2) 2 0 (-8) 11 0 0 0 0 0 0,
  r (-60) 0 0 1 (-2) 1 (-1) 0 0 0 0 0 0 0 0 0,
  r (-63) 0 2 0 (-2) 2 (-2) 0 0 0 0 0 0 0 0 0,
  r 64 0 0 1 0 (-4) (-1) 0 0 0 0 0 0 0 0 0,
  r (-64) 0 1 0 (-2) (-4) 0 0 0 0 0 0 0 0 0 0,
  r 40 (-24) 0 0 0 0 1 0 3 (-7) 4 0 0 0 0 0,
  r (-64) 0 1 0 0 (-6) 0 0 0 0 0 0 0 0 0 0,
  r (-16) (-48) 0 0 0 0 0 0 0 3 0 (-2) 0 0 0 0,
  r (-20) (-44) 0 0 0 0 0 0 0 3 0 1 0 0 0 2,
  r 24 (-40) 0 0 0 0 0 0 0 4 (-8) 0 0 0 0 (-2),
  r (-44) 20 0 0 0 0 0 0 0 6 (-15) 0 0 0 0 (-2),
  r (-44) 20 0 0 0 0 0 0 0 11 0 0 0 0 0 2,
  r (-20) (-44) 0 0 0 0 0 0 2 (-3) 0 0 0 0 0 (-2),
  r (-12) (-52) 0 0 0 0 0 0 2 (-2) 0 0 0 0 0 1,
  r (-12) 52 0 0 0 0 0 0 6 (-6) 0 0 0 0 0 (-1),
  r (-64) 0 1 0 (-2) (-3) (-1) 0 0 0 0 0 0 0 0 0,
  r 64 0 0 1 (-2) (-4) (-1) 0 0 0 0 0 0 0 0 0,
  r (-64) 0 2 (-1) 2 2 1 0 0 0 0 0 0 0 0 0,
  r 64 0 3 0 0 (-2) (-1) 0 0 0 0 0 0 0 0 0,
  r 64 0 2 0 0 (-2) 1 0 (-3) 3 0 0 0 0 0 0,
  r (-68) 0 1 1 (-2) 0 0 0 0 0 0 0 0 0 0 0,
  r (-44) (-24) 0 0 0 0 0 0 0 2 0 2 (-5) 0 0 2,
  r 20 48 0 0 0 0 0 0 0 3 0 2 (-5) 0 0 2,
  r (-68) 0 0 0 0 0 0 0 0 2 0 (-4) 0 0 0 (-2),
  r (-68) 0 0 0 0 0 0 0 0 3 (-5) 0 0 0 0 (-2),
  r 56 (-12) 0 0 0 0 0 0 5 (-3) 0 0 0 0 0 2,
  r (-68) 0 0 2 2 (-2) 0 0 0 0 0 0 0 0 0 0,
  r 68 0 1 0 (-2) 4 (-1) 0 0 0 0 0 0 0 0 0,
  r 68 0 0 1 2 4 2 0 0 0 0 0 0 0 0 0,
  r 68 0 0 1 (-4) 2 (-2) 0 0 0 0 0 0 0 0 0,
  r (-68) 0 0 2 0 (-2) 1 0 0 0 0 0 0 0 0 0,
  r (-68) 0 1 0 (-2) (-2) 1 0 0 0 0 0 0 0 0 0,
  r (-71) 0 1 (-1) 0 0 2 0 0 0 0 0 0 0 0 0,
  r (-72) 0 3 0 (-2) 0 (-2) 0 0 0 0 0 0 0 0 0,
  r (-72) 0 0 0 2 1 0 0 0 0 0 0 0 0 0 0,
  r 72 0 0 0 1 (-1) 1 0 (-2) 2 0 0 0 0 0 0,
  r (-72) 0 0 1 2 (-4) 1 0 0 0 0 0 0 0 0 0,
  r 48 (-24) 0 0 0 0 0 0 0 2 0 (-2) 5 0 0 2,
  r 72 0 1 (-1) (-2) 0 0 0 0 0 0 0 0 0 0 0,
  r 72 0 4 0 2 (-2) 1 0 0 0 0 0 0 0 0 0,
  r (-76) 0 1 1 2 0 0 0 0 0 0 0 0 0 0 0,
  r 32 44 0 0 0 0 0 0 0 1 0 1 0 0 0 0,
  r 0 (-76) 0 0 0 0 0 0 0 2 0 0 1 0 0 2,
  r 76 0 0 0 0 0 0 0 0 3 (-1) 0 0 0 0 2,
  r 28 (-48) 0 0 0 0 0 0 0 5 (-5) 0 0 0 0 2,
  r 16 (-60) 0 0 0 0 0 0 2 0 0 0 0 0 0 1,
  r 64 (-12) 0 0 0 0 0 0 7 (-11) 0 0 0 0 0 (-2),
  r 76 0 0 0 0 0 0 0 8 (-8) 0 0 0 0 0 0,
  r 0 76 0 0 1 (-1) 1 0 0 (-9) 15 0 0 0 0 0,
  r 76 0 1 0 0 (-2) 0 0 (-3) 3 0 0 0 0 0 0,
  r 12 64 0 0 1 (-1) 0 0 0 (-1) 0 2 0 0 0 0,
  r 76 0 1 0 (-4) 2 (-1) 0 0 0 0 0 0 0 0 0,
  r (-76) 0 2 (-1) (-2) (-4) (-2) 0 0 0 0 0 0 0 0 0,
  r 76 0 2 1 (-2) (-4) (-1) 0 0 0 0 0 0 0 0 0,
  r (-76) 0 3 0 0 (-4) (-1) 0 0 0 0 0 0 0 0 0,
  r (-76) 0 1 0 0 1 1 0 0 0 0 0 0 0 0 0,
  r 16 60 0 0 0 0 1 0 0 0 0 (-1) 0 0 0 0,
  r 0 76 0 0 0 0 1 0 (-2) 3 0 0 0 0 0 0,
  r (-76) 0 0 0 0 0 1 0 (-1) 1 0 0 0 0 0 0,
  r 74 (-4) 0 0 2 (-2) 3 0 0 0 0 0 0 0 0 0,
  r 79 0 1 1 0 (-2) (-2) 0 0 0 0 0 0 0 0 0,
  r (-80) 0 0 1 2 0 0 0 0 0 0 0 0 0 0 0,
  r (-36) (-44) 0 0 0 0 0 0 0 0 0 0 0 0 2 1,
  r 36 (-44) 0 0 0 0 0 0 0 3 0 (-3) 0 0 0 2,
  r 28 52 0 0 0 0 0 0 0 5 (-9) 0 0 0 0 0,
  r 0 (-80) 0 0 0 0 0 0 0 2 0 0 (-1) 0 0 2,
  r (-32) 48 0 0 0 0 0 0 0 5 (-9) 0 0 0 0 (-2),
  r 68 (-12) 0 0 0 0 0 0 3 0 0 0 0 0 0 2,
  r (-80) 0 4 0 0 (-2) 0 0 0 0 0 0 0 0 0 0,
  r 80 0 2 2 0 (-2) 0 0 0 0 0 0 0 0 0 0,
  r (-80) 0 2 1 0 0 1 0 0 0 0 0 0 0 0 0,
  r (-83) 0 2 0 (-2) 0 2 0 0 0 0 0 0 0 0 0,
  r 64 (-20) 0 0 0 0 0 0 5 (-7) 0 0 0 0 0 0,
  r 72 (-12) 0 0 0 0 0 0 0 3 0 (-3) 0 0 0 0,
  r 16 68 0 0 0 0 0 0 1 2 0 0 0 0 0 2,
  r (-16) 68 0 0 0 0 0 0 5 (-5) 0 0 0 0 0 (-1),
  r 56 28 0 0 1 (-1) 0 0 (-8) 12 0 0 0 0 0 0,
  r 84 0 1 2 2 0 2 0 0 0 0 0 0 0 0 0,
  r (-68) (-16) 2 0 0 (-2) 1 0 (-6) 8 0 0 0 0 0 0,
  r 84 0 0 1 0 (-2) (-2) 0 0 0 0 0 0 0 0 0,
  r 88 0 1 (-1) 2 (-1) 2 0 0 0 0 0 0 0 0 0,
  r 88 0 1 (-1) 2 0 0 0 0 0 0 0 0 0 0 0,
  r 88 0 1 (-1) 0 (-4) 0 0 0 0 0 0 0 0 0 0,
  r 64 (-24) 0 0 0 0 0 0 0 4 (-5) 0 0 0 0 0,
  r 52 36 0 0 0 0 0 0 0 6 0 0 0 0 0 2,
  r (-52) 36 0 0 0 0 0 0 3 (-5) 4 0 0 0 0 2,
  r 36 (-52) 0 0 1 (-1) 1 0 0 (-3) 4 0 0 0 0 0,
  r 0 88 0 0 0 0 0 0 0 4 (-7) 0 0 0 0 0,
  r 56 32 0 0 0 0 0 0 0 8 (-15) 0 0 0 0 (-2),
  r 88 0 0 2 (-2) (-2) (-1) 0 0 0 0 0 0 0 0 0,
  r 60 (-28) 0 0 0 0 1 0 0 8 (-15) 0 0 0 0 0,
  r (-88) 0 2 1 0 0 (-1) 0 0 0 0 0 0 0 0 0,
  r (-88) 0 1 2 0 (-2) 1 0 0 0 0 0 0 0 0 0,
  r 91 0 1 0 0 2 2 0 0 0 0 0 0 0 0 0,
  r (-36) (-56) 0 0 1 (-1) 1 0 3 (-6) 0 0 0 0 0 0,
  r (-91) 0 3 1 0 0 0 0 0 0 0 0 0 0 0 0,
  r (-91) 0 2 0 0 (-6) 0 0 0 0 0 0 0 0 0 0,
  r 44 (-48) 0 0 1 (-1) 1 0 8 (-14) 0 0 0 0 0 0,
  r (-56) 36 0 0 0 0 0 0 3 (-9) 4 0 0 0 0 (-2),
  r (-91) 0 5 0 2 0 2 0 0 0 0 0 0 0 0 0,
  r 40 52 1 (-2) 2 (-2) 1 0 0 0 0 0 0 0 0 0,
  r 91 0 3 0 (-2) (-6) (-2) 0 0 0 0 0 0 0 0 0,
  r 91 0 1 1 2 2 1 0 0 0 0 0 0 0 0 0,
  r 0 92 1 0 0 (-1) (-1) 0 (-3) 4 0 0 0 0 0 0,
  r (-95) 0 1 (-1) (-2) 2 (-2) 0 0 0 0 0 0 0 0 0,
  r 95 0 1 0 4 0 2 0 0 0 0 0 0 0 0 0,
  r (-95) 0 3 0 (-2) 0 0 0 0 0 0 0 0 0 0 0,
  r 20 76 0 0 0 0 0 0 6 (-8) 0 0 0 0 0 (-1),
  r 0 (-95) 0 0 0 0 0 0 7 (-10) 0 0 0 0 0 (-2),
  r 84 12 0 0 0 0 0 0 0 5 (-8) 3 0 0 0 0,
  r 64 32 1 0 0 (-1) 0 0 0 (-3) 4 0 0 0 0 0,
  r 0 95 0 0 1 (-1) 0 0 0 (-1) 0 (-1) 1 0 0 0,
  r (-95) 0 1 (-1) 2 4 2 0 0 0 0 0 0 0 0 0,
  r (-95) 0 3 0 2 2 1 0 0 0 0 0 0 0 0 0,
  r 36 (-64) 0 0 1 (-1) 0 0 0 (-1) 0 (-2) 5 0 0 0,
  r 99 0 1 (-2) 0 2 0 0 0 0 0 0 0 0 0 0,
  r (-64) 36 0 0 0 0 0 0 0 4 (-7) 0 0 0 0 (-2),
  r (-99) 0 0 0 0 0 0 0 0 1 (-1) 0 0 0 0 0,
  r (-16) 84 0 0 0 0 0 0 0 2 0 (-2) 0 0 0 1,
  r (-99) 0 0 0 0 0 0 0 0 7 (-8) 3 0 0 0 2,
  r 24 76 0 0 0 0 0 0 2 (-1) 0 0 0 0 0 0,
  r (-99) 0 2 0 0 1 0 0 0 0 0 0 0 0 0 0,
  r (-103) 0 0 0 0 0 3 0 0 0 0 0 0 0 0 0,
  r (-103) 0 3 0 (-2) (-2) (-1) 0 0 0 0 0 0 0 0 0,
  r 20 84 0 0 1 (-1) 1 0 (-1) 0 0 0 0 0 0 0,
  r (-24) 80 0 0 0 0 0 0 0 1 0 0 (-2) 0 0 0,
  r (-103) 0 3 0 2 (-4) 2 0 0 0 0 0 0 0 0 0,
  r 103 0 2 1 2 2 2 0 0 0 0 0 0 0 0 0,
  r 0 (-103) 0 0 3 0 3 0 0 0 0 0 0 0 0 0,
  r (-84) (-24) 0 0 0 0 1 0 (-3) 5 0 0 0 0 0 0,
  r 107 0 0 0 2 (-3) 1 0 0 0 0 0 0 0 0 0,
  r (-107) 0 0 1 (-2) (-2) 0 0 0 0 0 0 0 0 0 0,
  r 107 0 0 0 2 (-2) 1 0 (-4) 4 0 0 0 0 0 0,
  r 76 (-32) 0 0 0 0 0 0 0 1 (-4) 0 0 0 0 (-2),
  r 107 0 0 0 0 0 0 0 0 3 (-3) 0 0 0 0 0,
  r 0 (-107) 0 0 0 0 0 0 3 (-6) 0 0 0 0 0 (-2),
  r (-107) 0 2 0 2 4 2 0 0 0 0 0 0 0 0 0,
  r 107 0 2 (-1) (-2) (-2) (-2) 0 0 0 0 0 0 0 0 0,
  r (-111) 0 0 0 0 0 1 0 1 (-1) 0 0 0 0 0 0,
  r (-111) 0 1 1 (-2) (-2) 0 0 0 0 0 0 0 0 0 0,
  r (-72) (-40) 0 0 0 0 0 0 0 0 3 0 0 0 0 2,
  r 20 (-91) 0 0 0 0 0 0 1 1 0 0 0 0 0 1,
  r 111 0 0 0 0 0 0 0 7 (-7) 0 0 0 0 0 0,
  r (-111) 0 2 0 2 (-4) 0 0 0 0 0 0 0 0 0 0,
  r 16 95 0 0 0 0 1 0 0 0 0 0 1 0 0 0,
  r (-111) 0 1 2 0 (-2) (-1) 0 0 0 0 0 0 0 0 0,
  r (-111) 0 1 0 0 1 (-1) 0 0 0 0 0 0 0 0 0,
  r (-112) 0 0 1 2 (-2) (-1) 0 0 0 0 0 0 0 0 0,
  r (-115) 0 1 1 2 (-2) 0 0 0 0 0 0 0 0 0 0,
  r 24 91 0 0 0 0 0 0 0 0 0 3 0 0 0 1,
  r (-95) 20 0 0 0 0 0 0 6 (-10) 0 0 0 0 0 (-2),
  r 115 0 0 0 0 0 0 0 0 3 0 0 (-1) 0 0 2,
  r 115 0 3 (-1) 0 0 0 0 0 0 0 0 0 0 0 0,
  r (-115) 0 2 0 (-2) 2 0 0 0 0 0 0 0 0 0 0,
  r 115 0 2 (-1) (-2) 0 0 0 0 0 0 0 0 0 0 0,
  r (-115) 0 1 0 2 4 1 0 0 0 0 0 0 0 0 0,
  r 0 115 1 0 0 (-1) 1 0 (-3) 4 0 0 0 0 0 0,
  r 115 0 2 (-1) 0 0 (-1) 0 0 0 0 0 0 0 0 0]

private def x0Series_4 : List Row := [
  r 0 119 0 0 1 0 2 0 0 0 0 0 0 0 0 0,
  r 119 0 3 0 2 0 0 0 0 0 0 0 0 0 0 0,
  r 119 0 1 1 (-2) 1 0 0 0 0 0 0 0 0 0 0,
  r 91 28 0 0 0 0 0 0 0 1 (-2) 0 0 0 0 1,
  r (-76) (-44) 0 0 0 0 0 0 0 3 (-8) 3 0 0 0 0,
  r (-24) 95 0 0 0 0 0 0 4 (-4) 0 0 0 0 0 (-1),
  r 119 0 1 1 (-2) (-4) (-1) 0 0 0 0 0 0 0 0 0,
  r 122 0 0 0 2 (-4) 2 0 0 0 0 0 0 0 0 0,
  r (-12) 111 0 0 1 1 1 0 0 1 0 0 0 0 0 0,
  r 0 123 0 0 0 0 0 0 0 3 (-6) 0 0 0 0 0,
  r 123 0 0 0 2 (-1) 0 0 0 0 0 0 0 0 0 0,
  r (-123) 0 1 (-2) 2 2 2 0 0 0 0 0 0 0 0 0,
  r (-123) 0 1 (-1) (-2) (-4) (-2) 0 0 0 0 0 0 0 0 0,
  r (-127) 0 2 0 2 (-4) 2 0 0 0 0 0 0 0 0 0,
  r 0 (-127) 0 0 0 0 1 0 2 (-3) 0 0 0 0 0 0,
  r (-44) (-84) 0 0 0 0 1 0 0 (-2) 4 0 0 0 0 0,
  r 127 0 1 1 0 2 1 0 0 0 0 0 0 0 0 0,
  r (-127) 0 1 0 0 4 1 0 0 0 0 0 0 0 0 0,
  r (-127) 0 1 0 (-4) (-2) (-2) 0 0 0 0 0 0 0 0 0,
  r 84 (-44) 1 0 (-2) 0 (-1) 0 0 (-1) 0 0 0 0 0 0,
  r 84 (-44) 1 0 2 0 1 0 0 (-2) 0 3 0 0 0 0,
  r (-84) 44 2 0 0 0 0 0 0 (-2) 0 3 0 0 0 0,
  r (-16) (-111) 0 0 0 0 0 0 1 0 0 0 0 0 0 0,
  r 127 0 3 1 2 (-2) 2 0 0 0 0 0 0 0 0 0,
  r 127 0 1 0 (-2) (-6) (-2) 0 0 0 0 0 0 0 0 0,
  r 40 (-88) 0 0 2 (-2) 1 0 0 (-9) 13 0 0 0 0 0,
  r 127 0 0 0 4 0 1 0 0 0 0 0 0 0 0 0,
  r (-119) (-12) 0 0 0 0 0 0 2 (-3) 0 0 0 0 0 (-1),
  r 131 0 1 0 (-2) 1 (-2) 0 0 0 0 0 0 0 0 0,
  r (-131) 0 0 1 (-2) 2 1 0 0 0 0 0 0 0 0 0,
  r 135 0 1 0 0 (-1) (-2) 0 0 0 0 0 0 0 0 0,
  r 135 0 1 0 0 (-2) 0 0 0 (-2) 0 2 0 0 0 0,
  r 88 48 0 0 0 0 0 0 0 1 (-8) 3 0 0 0 (-2),
  r (-135) 0 0 0 0 0 0 0 9 (-11) 0 0 0 0 0 (-2),
  r (-135) 0 1 (-1) (-2) 2 0 0 0 0 0 0 0 0 0 0,
  r 44 95 0 0 1 (-1) 2 0 0 (-1) 0 0 2 0 0 0,
  r (-28) 111 0 0 1 (-1) 1 0 (-4) 5 0 0 0 0 0 0,
  r 103 (-36) 2 0 (-1) (-1) 0 0 0 3 (-7) 0 0 0 0 0,
  r (-44) (-95) 0 0 0 0 0 0 0 0 0 2 (-5) 0 0 (-2),
  r 56 84 0 0 0 0 0 0 0 2 (-4) 0 0 0 0 (-1),
  r 32 (-107) 0 0 0 0 0 0 0 1 0 0 0 0 0 0,
  r (-12) (-127) 0 0 0 0 0 0 0 4 0 (-1) 0 0 0 2,
  r 0 139 0 0 0 0 0 0 0 2 0 (-1) 0 0 0 0,
  r (-139) 0 1 2 0 0 0 0 0 0 0 0 0 0 0 0,
  r (-139) 0 1 (-2) (-2) (-2) (-2) 0 0 0 0 0 0 0 0 0,
  r 139 0 2 (-1) 0 0 1 0 0 0 0 0 0 0 0 0,
  r 139 0 0 0 0 4 (-1) 0 0 0 0 0 0 0 0 0,
  r 143 0 1 1 0 (-1) 0 0 0 0 0 0 0 0 0 0,
  r 95 48 2 0 0 (-2) 0 0 0 (-5) 6 0 0 0 0 0,
  r (-95) (-48) 0 0 2 0 2 0 0 1 0 0 0 0 0 0,
  r 95 (-48) 2 0 2 0 2 0 0 2 0 (-3) 0 0 0 0,
  r (-68) (-76) 0 0 1 (-1) 1 0 0 (-1) 0 0 0 0 2 0,
  r 36 (-107) 0 0 1 (-1) 1 0 0 (-1) 0 (-4) 10 0 0 0,
  r (-119) (-24) 0 0 0 0 0 0 0 1 0 (-4) 0 0 0 (-2),
  r 143 0 0 1 4 (-2) 2 0 0 0 0 0 0 0 0 0,
  r 143 0 1 (-1) 0 2 (-1) 0 0 0 0 0 0 0 0 0,
  r (-143) 0 1 0 (-2) 2 1 0 0 0 0 0 0 0 0 0,
  r (-147) 0 1 (-1) 0 2 1 0 0 0 0 0 0 0 0 0,
  r 60 88 2 0 0 (-2) 0 0 0 (-6) 8 0 0 0 0 0,
  r 95 (-52) 0 0 0 0 0 0 0 3 (-6) 0 0 0 0 (-2),
  r 123 (-24) 0 0 0 0 0 0 3 (-1) 0 0 0 0 0 2,
  r 147 0 0 0 2 3 2 0 0 0 0 0 0 0 0 0,
  r 147 0 2 0 4 (-2) 2 0 0 0 0 0 0 0 0 0,
  r 151 0 2 0 0 (-1) 0 0 0 0 0 0 0 0 0 0,
  r (-151) 0 2 (-1) 0 (-2) 1 0 0 0 0 0 0 0 0 0,
  r 151 0 2 (-2) 0 (-2) (-1) 0 0 0 0 0 0 0 0 0,
  r (-151) 0 1 0 2 (-2) (-1) 0 0 0 0 0 0 0 0 0,
  r (-155) 0 1 (-1) 2 (-2) 1 0 0 0 0 0 0 0 0 0,
  r (-64) 91 0 0 0 0 0 0 0 4 (-6) 0 0 0 0 0,
  r (-32) (-123) 0 0 0 0 0 0 1 (-3) 0 0 0 0 0 (-1),
  r (-28) (-127) 0 0 0 0 0 0 1 (-1) 0 0 0 0 0 1,
  r 155 0 1 0 4 (-2) 1 0 0 0 0 0 0 0 0 0,
  r 159 0 0 0 0 0 0 0 6 (-6) 0 0 0 0 0 0,
  r 103 (-56) 0 0 0 0 0 0 0 4 (-3) 0 0 0 0 2,
  r (-159) 0 1 0 2 (-1) 1 0 0 0 0 0 0 0 0 0,
  r 163 0 2 1 2 (-2) 1 0 0 0 0 0 0 0 0 0,
  r (-139) (-28) 0 0 1 (-1) 0 0 (-5) 7 0 0 0 0 0 0,
  r 76 (-91) 0 0 0 0 0 0 2 1 0 0 0 0 0 2,
  r (-32) 135 0 0 0 0 0 0 3 (-3) 0 0 0 0 0 (-1),
  r (-167) 0 0 1 2 1 1 0 0 0 0 0 0 0 0 0,
  r 167 0 2 0 0 2 (-1) 0 0 0 0 0 0 0 0 0,
  r 28 (-143) 0 0 0 0 0 0 0 2 0 0 0 0 0 1,
  r (-52) (-119) 0 0 0 0 0 0 0 1 0 2 (-5) 0 0 0,
  r 32 139 0 0 0 0 0 0 5 (-7) 0 0 0 0 0 (-1),
  r 171 0 2 0 (-2) (-6) (-2) 0 0 0 0 0 0 0 0 0,
  r (-171) 0 1 0 2 (-3) 1 0 0 0 0 0 0 0 0 0,
  r (-147) (-28) 0 0 0 0 0 0 0 4 0 (-3) 0 0 0 2,
  r 175 0 2 1 (-2) 0 0 0 0 0 0 0 0 0 0 0,
  r (-175) 0 3 0 (-2) (-2) (-2) 0 0 0 0 0 0 0 0 0,
  r (-175) 0 0 0 4 (-4) 2 0 0 0 0 0 0 0 0 0,
  r (-179) 0 1 1 2 (-4) 1 0 0 0 0 0 0 0 0 0,
  r 0 (-179) 0 0 0 0 0 0 6 (-9) 0 0 0 0 0 (-2),
  r 179 0 1 2 2 (-2) 2 0 0 0 0 0 0 0 0 0,
  r (-179) 0 4 0 2 0 1 0 0 0 0 0 0 0 0 0,
  r (-179) 0 0 1 0 2 (-1) 0 0 0 0 0 0 0 0 0,
  r (-183) 0 2 0 (-4) (-2) (-2) 0 0 0 0 0 0 0 0 0,
  r (-187) 0 1 1 (-2) 2 (-1) 0 0 0 0 0 0 0 0 0,
  r 187 0 2 (-1) 0 2 0 0 0 0 0 0 0 0 0 0,
  r (-99) 88 0 0 0 0 0 0 0 0 0 2 0 0 0 0,
  r 72 (-115) 0 0 0 0 0 0 0 4 (-4) 0 0 0 0 2,
  r (-127) 60 0 0 0 0 0 0 0 0 0 0 1 0 0 (-1),
  r 187 0 1 1 0 1 0 0 0 0 0 0 0 0 0 0,
  r 187 0 2 0 2 1 2 0 0 0 0 0 0 0 0 0,
  r 119 (-72) 0 0 0 0 0 0 0 5 (-4) 0 0 0 0 2,
  r 191 0 0 1 0 1 (-1) 0 0 0 0 0 0 0 0 0,
  r 195 0 3 0 0 2 0 0 0 0 0 0 0 0 0 0,
  r 195 0 0 1 0 1 1 0 0 0 0 0 0 0 0 0,
  r 199 0 0 0 2 (-2) 1 0 0 (-2) 0 2 0 0 0 0,
  r (-40) 159 0 0 1 (-1) 1 0 (-3) 4 0 0 0 0 0 0,
  r 203 0 0 0 0 0 0 0 0 2 (-4) 0 0 0 0 (-2),
  r 203 0 2 0 0 (-3) 0 0 0 0 0 0 0 0 0 0,
  r 203 0 2 (-1) 2 (-2) 2 0 0 0 0 0 0 0 0 0,
  r (-203) 0 1 (-2) 2 0 2 0 0 0 0 0 0 0 0 0,
  r (-24) (-187) 0 0 1 (-1) 1 0 0 (-1) 0 1 0 0 0 0,
  r (-24) 187 0 0 0 0 0 0 0 1 (-2) 0 0 0 0 (-1),
  r (-199) 12 0 0 0 0 0 0 8 (-10) 0 0 0 0 0 (-2),
  r (-84) (-127) 0 0 0 0 0 0 0 0 4 0 0 0 0 2,
  r 211 0 1 0 0 (-1) 0 0 0 (-1) 0 1 0 0 0 0,
  r (-56) (-155) 0 0 0 0 0 0 5 (-8) 0 0 0 0 0 0,
  r (-211) 0 1 1 2 1 2 0 0 0 0 0 0 0 0 0,
  r 211 0 3 1 2 0 2 0 0 0 0 0 0 0 0 0,
  r (-80) 135 0 0 0 0 0 0 0 3 (-5) 0 0 0 0 0,
  r 215 0 2 0 0 (-2) 1 0 0 (-2) 0 2 0 0 0 0,
  r (-32) (-187) 0 0 1 (-1) 1 0 0 (-2) 2 0 0 0 0 0,
  r 187 32 0 0 0 0 0 0 0 0 0 0 1 0 0 1,
  r (-103) (-115) 1 0 0 (-1) 1 0 0 (-1) 0 2 0 0 0 0,
  r (-222) 0 2 0 0 0 (-2) 0 0 0 0 0 0 0 0 0,
  r 227 0 1 0 2 1 1 0 0 0 0 0 0 0 0 0,
  r 235 0 0 0 0 0 0 0 5 (-5) 0 0 0 0 0 0,
  r 239 0 2 0 (-2) (-2) 0 0 0 0 0 0 0 0 0 0,
  r (-183) 56 0 0 0 0 0 0 4 (-6) 0 0 0 0 0 0,
  r (-44) (-195) 0 0 0 0 0 0 3 (-5) 0 0 0 0 0 (-1),
  r 24 215 0 0 0 0 0 0 0 0 0 1 0 0 0 1,
  r (-239) 0 1 0 2 (-3) 2 0 0 0 0 0 0 0 0 0,
  r (-243) 0 1 0 (-2) 1 0 0 0 0 0 0 0 0 0 0,
  r 246 0 0 2 0 0 (-1) 0 0 0 0 0 0 0 0 0,
  r 167 80 0 0 1 (-1) 0 0 0 (-1) 0 0 (-1) 0 0 0,
  r 211 (-36) 2 0 0 (-2) (-1) 0 0 (-2) 0 3 0 0 0 0,
  r 247 0 1 (-1) 0 (-2) 1 0 0 0 0 0 0 0 0 0,
  r 0 (-250) 1 0 (-1) 0 (-3) 0 0 0 0 0 0 0 0 0,
  r 251 0 1 1 (-2) 0 (-1) 0 0 0 0 0 0 0 0 0,
  r (-251) 0 2 1 (-2) (-2) (-2) 0 0 0 0 0 0 0 0 0,
  r (-251) 0 3 (-1) 2 0 2 0 0 0 0 0 0 0 0 0,
  r (-111) 143 0 0 0 0 0 0 0 1 0 (-3) 0 0 0 0,
  r 255 0 2 1 2 0 1 0 0 0 0 0 0 0 0 0,
  r (-259) 0 0 1 0 (-4) 0 0 0 0 0 0 0 0 0 0,
  r 52 207 0 0 0 0 0 0 0 0 0 1 0 0 0 (-1),
  r 44 223 0 0 0 0 0 0 0 0 0 0 1 0 0 0,
  r (-48) 219 0 0 0 0 0 0 2 (-2) 0 0 0 0 0 (-1),
  r 179 (-88) 0 0 0 0 0 0 0 8 (-15) 0 0 0 0 0,
  r (-270) 0 1 1 (-2) 1 (-1) 0 0 0 0 0 0 0 0 0,
  r (-12) 263 0 0 0 0 0 0 4 (-7) 0 0 0 0 0 (-2),
  r 215 (-60) 0 0 0 0 0 0 3 (-3) 0 0 0 0 0 2,
  r (-274) 0 2 0 2 (-1) 2 0 0 0 0 0 0 0 0 0,
  r 280 0 1 0 2 (-4) 2 0 0 0 0 0 0 0 0 0,
  r (-147) 139 0 0 0 0 1 0 0 1 (-2) 0 0 0 0 0,
  r (-56) (-235) 0 0 0 0 0 0 2 (-4) 0 0 0 0 0 (-1),
  r (-290) 0 1 (-1) 2 (-2) 2 0 0 0 0 0 0 0 0 0,
  r (-294) 0 0 0 0 0 0 0 0 0 2 0 0 0 0 2,
  r (-294) 0 0 0 0 0 0 0 7 (-9) 0 0 0 0 0 (-2),
  r 294 0 0 2 2 0 2 0 0 0 0 0 0 0 0 0,
  r 207 91 0 0 0 0 0 0 0 0 0 1 0 0 0 2,
  r (-298) 0 0 0 0 0 0 0 0 1 0 0 (-1) 0 0 0,
  r 298 0 1 0 2 (-4) 0 0 0 0 0 0 0 0 0 0,
  r 0 298 0 0 1 0 0 0 0 0 0 0 0 0 0 0,
  r 306 0 2 0 (-2) 2 (-1) 0 0 0 0 0 0 0 0 0,
  r 294 (-12) 1 (-2) 0 (-2) 0 0 0 0 0 0 0 0 0 0,
  r (-306) 0 2 (-1) 2 0 1 0 0 0 0 0 0 0 0 0,
  r 310 0 3 0 (-2) 0 (-1) 0 0 0 0 0 0 0 0 0,
  r (-263) (-48) 0 0 1 (-1) 1 0 0 (-1) 0 0 1 0 0 0,
  r 314 0 2 0 (-4) 0 (-2) 0 0 0 0 0 0 0 0 0,
  r 251 (-64) 0 0 0 0 0 0 3 (-7) 0 0 0 0 0 (-2),
  r (-326) 0 2 (-1) (-2) 0 (-1) 0 0 0 0 0 0 0 0 0,
  r 322 (-4) 1 0 2 2 0 0 0 0 0 0 0 0 0 0,
  r 326 0 1 0 0 4 0 0 0 0 0 0 0 0 0 0,
  r 326 0 2 1 0 (-2) 1 0 0 0 0 0 0 0 0 0,
  r 330 0 0 0 0 0 0 0 4 (-4) 0 0 0 0 0 0,
  r (-139) (-191) 0 0 0 0 0 0 0 1 0 2 0 0 0 2,
  r (-330) 0 1 0 (-2) (-1) (-2) 0 0 0 0 0 0 0 0 0,
  r 330 0 3 0 0 0 1 0 0 0 0 0 0 0 0 0,
  r 331 0 1 0 2 0 (-1) 0 0 0 0 0 0 0 0 0,
  r (-330) 1 0 0 2 0 3 0 0 0 0 0 0 0 0 0,
  r 334 0 0 1 2 2 1 0 0 0 0 0 0 0 0 0,
  r (-334) 0 1 (-1) (-2) (-2) (-1) 0 0 0 0 0 0 0 0 0,
  r 227 (-111) 1 0 0 0 1 0 (-18) 16 0 0 0 0 0 0,
  r 338 0 1 (-2) 0 0 0 0 0 0 0 0 0 0 0 0,
  r 0 (-342) 0 0 0 0 0 0 0 6 (-16) 4 5 0 0 (-2),
  r 345 0 0 2 2 (-2) 1 0 0 0 0 0 0 0 0 0,
  r (-350) 0 2 0 2 (-2) 0 0 0 0 0 0 0 0 0 0,
  r (-354) 0 0 0 0 0 0 0 0 2 0 0 0 0 0 2,
  r 354 0 0 0 0 0 0 0 3 (-3) 0 0 0 0 0 0,
  r 80 (-278) 0 0 0 0 1 0 0 0 0 1 0 0 0 0,
  r (-290) 68 0 0 0 0 1 0 0 0 0 2 (-5) 0 0 0,
  r (-361) 0 2 0 0 0 2 0 0 0 0 0 0 0 0 0,
  r (-362) 0 1 0 (-2) (-3) (-2) 0 0 0 0 0 0 0 0 0,
  r 366 4 0 1 (-2) (-4) (-2) 0 0 0 0 0 0 0 0 0,
  r (-366) 4 2 (-1) 2 2 2 0 0 0 0 0 0 0 0 0,
  r 330 40 0 2 (-2) 0 (-2) 0 0 0 0 0 0 0 0 0,
  r 370 0 1 0 (-4) 2 (-2) 0 0 0 0 0 0 0 0 0,
  r 302 68 0 0 0 0 1 0 0 0 0 (-2) 5 0 0 0]

private def x0Series_5 : List Row := [
  r (-371) 0 0 2 0 0 1 0 0 0 0 0 0 0 0 0,
  r (-374) 0 0 2 (-2) 2 0 0 0 0 0 0 0 0 0 0,
  r 374 0 4 0 0 0 0 0 0 0 0 0 0 0 0 0,
  r (-374) 0 0 1 (-2) 1 (-2) 0 0 0 0 0 0 0 0 0,
  r (-362) (-16) 2 1 (-2) 0 (-1) 0 0 0 0 0 0 0 0 0,
  r (-382) 0 1 (-1) (-2) 0 (-1) 0 0 0 0 0 0 0 0 0,
  r (-310) (-72) 2 0 0 (-2) 0 0 (-6) 8 0 0 0 0 0 0,
  r (-366) (-20) 2 (-1) 0 (-2) 0 0 0 0 0 0 0 0 0 0,
  r (-159) 227 0 0 0 0 1 0 (-8) 13 0 0 0 0 0 0,
  r 330 60 0 0 0 0 0 0 0 2 0 (-3) 0 0 0 0,
  r 84 (-310) 0 0 1 (-1) 0 0 0 (-1) 0 (-1) 0 0 0 0,
  r 394 0 0 0 1 (-1) 1 0 0 (-5) 8 (-3) 0 0 0 0,
  r 402 0 2 0 2 (-4) 1 0 0 0 0 0 0 0 0 0,
  r (-398) 4 1 (-1) 2 2 1 0 0 0 0 0 0 0 0 0,
  r (-398) (-4) 1 0 0 (-4) 1 0 0 0 0 0 0 0 0 0,
  r (-404) 0 2 0 0 (-2) 2 0 0 0 0 0 0 0 0 0,
  r 270 (-135) 1 0 0 0 (-1) 0 (-18) 16 0 0 0 0 0 0,
  r (-406) 0 2 0 0 (-4) 1 0 0 0 0 0 0 0 0 0,
  r 410 0 1 0 0 (-3) 0 0 0 0 0 0 0 0 0 0,
  r 414 0 1 2 (-2) (-2) (-2) 0 0 0 0 0 0 0 0 0,
  r 418 0 1 (-1) (-2) 2 (-1) 0 0 0 0 0 0 0 0 0,
  r (-350) 68 0 0 0 0 0 0 5 (-8) 0 0 0 0 0 (-1),
  r 354 (-64) 2 0 0 (-2) 1 0 0 (-2) 0 3 0 0 0 0,
  r (-410) (-12) 1 1 0 2 0 0 0 0 0 0 0 0 0 0,
  r (-422) 0 0 0 2 (-1) 1 0 0 0 0 0 0 0 0 0,
  r (-270) 155 0 0 0 0 0 0 0 2 (-3) 0 0 0 0 0,
  r 88 (-346) 0 0 0 0 0 0 1 (-2) 0 0 0 0 0 0,
  r 438 0 2 1 (-2) (-4) (-2) 0 0 0 0 0 0 0 0 0,
  r 183 263 0 0 0 0 1 0 8 (-13) 0 0 0 0 0 0,
  r (-449) 0 0 0 0 0 0 0 1 (-3) 0 0 0 0 0 (-2),
  r 450 0 1 (-1) 0 (-2) (-1) 0 0 0 0 0 0 0 0 0,
  r (-453) 0 2 0 0 2 1 0 0 0 0 0 0 0 0 0,
  r 0 (-453) 0 0 0 0 0 0 2 (-5) 0 0 0 0 0 (-2),
  r 0 (-453) 0 0 0 0 0 0 3 (-2) 0 0 0 0 0 2,
  r (-453) 0 0 0 1 (-1) 1 0 0 3 (-8) 3 0 0 0 0,
  r 449 (-4) 4 0 2 (-2) 2 0 0 0 0 0 0 0 0 0,
  r (-457) 0 2 1 0 (-4) 0 0 0 0 0 0 0 0 0 0,
  r 465 0 0 0 2 (-2) 1 0 (-3) 3 0 0 0 0 0 0,
  r (-465) 0 0 0 0 0 0 0 6 (-8) 0 0 0 0 0 (-2),
  r (-469) 0 0 0 0 0 0 0 0 1 0 (-3) 0 0 0 (-2),
  r 470 (-4) 3 0 0 0 (-1) 0 0 0 0 0 0 0 0 0,
  r (-475) 0 0 0 0 2 (-2) 0 0 0 0 0 0 0 0 0,
  r (-481) 4 0 0 2 4 1 0 0 0 0 0 0 0 0 0,
  r (-310) 179 0 0 0 0 0 0 0 3 (-4) 0 0 0 0 0,
  r (-490) 0 2 0 0 (-4) (-1) 0 0 0 0 0 0 0 0 0,
  r 513 4 0 2 (-2) (-2) (-2) 0 0 0 0 0 0 0 0 0,
  r 0 521 1 0 0 (-1) 0 0 (-3) 4 0 0 0 0 0 0,
  r (-99) 422 0 0 0 0 0 0 1 (-1) 0 0 0 0 0 (-1),
  r 99 422 0 0 0 0 0 0 4 (-6) 0 0 0 0 0 (-1),
  r 525 0 2 1 0 (-2) (-1) 0 0 0 0 0 0 0 0 0,
  r (-529) 0 0 0 0 0 0 0 0 0 0 0 2 0 0 2,
  r (-533) 4 3 0 2 2 2 0 0 0 0 0 0 0 0 0,
  r 549 0 2 0 0 (-2) 0 0 (-3) 3 0 0 0 0 0 0,
  r 561 0 0 0 4 (-2) 1 0 0 0 0 0 0 0 0 0,
  r 573 (-4) 1 1 2 2 2 0 0 0 0 0 0 0 0 0,
  r 569 (-12) 0 0 0 0 0 0 0 4 (-2) 0 0 0 0 2,
  r 585 0 3 0 2 (-2) 1 0 0 0 0 0 0 0 0 0,
  r (-505) 84 0 0 0 0 0 0 0 0 0 3 0 0 0 2,
  r 318 (-282) 0 0 0 0 0 0 0 3 (-2) 0 0 0 0 2,
  r (-601) (-4) 1 1 0 (-4) 0 0 0 0 0 0 0 0 0 0,
  r (-609) (-4) 0 0 2 (-4) 1 0 0 0 0 0 0 0 0 0,
  r (-612) 4 0 0 0 4 1 0 0 0 0 0 0 0 0 0,
  r (-338) (-278) 0 0 0 0 0 0 0 1 2 0 0 0 0 2,
  r 620 0 0 1 0 (-2) (-1) 0 0 0 0 0 0 0 0 0,
  r (-243) (-382) 0 0 0 0 0 0 8 (-15) 0 0 0 0 0 (-2),
  r (-191) (-438) 0 0 1 (-1) 1 0 0 (-1) 0 0 2 0 0 0,
  r 267 (-362) 0 0 0 0 0 0 0 3 0 (-2) 0 0 0 2,
  r 632 0 1 1 (-2) 0 (-2) 0 0 0 0 0 0 0 0 0,
  r (-640) 0 3 0 0 (-4) 0 0 0 0 0 0 0 0 0 0,
  r 0 (-644) 0 0 1 0 1 0 0 0 0 0 0 0 0 0,
  r 410 (-239) 1 0 0 (-2) 0 0 19 (-21) 3 0 0 0 0 0,
  r 203 453 0 0 0 0 0 0 0 0 0 0 2 0 0 1,
  r (-648) 8 1 0 2 4 2 0 0 0 0 0 0 0 0 0,
  r 557 107 0 0 1 (-1) 1 0 (-5) 7 0 0 0 0 0 0,
  r 497 (-171) 0 0 0 0 0 0 0 8 (-16) 4 5 0 0 2,
  r (-107) (-569) 0 0 1 (-1) 1 0 0 (-1) 0 2 0 0 0 0,
  r (-223) (-465) 0 0 0 0 0 0 0 8 (-16) 4 5 0 0 (-2),
  r 247 (-446) 0 0 0 0 0 0 8 (-11) 0 0 0 0 0 (-2),
  r (-694) 0 2 0 0 (-2) (-2) 0 0 0 0 0 0 0 0 0,
  r 648 (-48) 0 0 0 0 0 0 0 2 0 1 0 0 0 2,
  r 692 4 1 1 (-2) (-4) (-2) 0 0 0 0 0 0 0 0 0,
  r 20 (-688) 0 0 0 0 0 0 2 (-1) 0 0 0 0 0 2,
  r (-613) (-119) 0 0 0 0 0 0 0 2 0 (-1) 0 0 0 2,
  r 632 (-111) 1 0 0 (-1) 1 0 0 0 0 0 0 0 0 0,
  r 744 0 1 0 0 (-4) (-1) 0 0 0 0 0 0 0 0 0,
  r 740 (-4) 0 0 4 0 2 0 0 0 0 0 0 0 0 0,
  r (-732) (-12) 0 0 0 0 0 0 0 4 0 (-2) 0 0 0 2,
  r (-748) 0 0 0 2 (-3) 2 0 0 0 0 0 0 0 0 0,
  r 501 (-251) 1 0 (-2) 0 (-2) 0 0 4 (-8) 3 0 0 0 0,
  r (-577) 187 0 0 0 0 0 0 3 (-5) 0 0 0 0 0 0,
  r 521 (-251) 1 0 2 0 2 0 0 1 0 0 0 0 0 0,
  r (-764) 8 2 0 2 2 1 0 0 0 0 0 0 0 0 0,
  r (-784) (-4) 1 0 (-4) 0 (-1) 0 0 0 0 0 0 0 0 0,
  r 791 0 0 1 0 2 1 0 0 0 0 0 0 0 0 0,
  r (-804) 0 0 0 0 0 0 0 5 (-7) 0 0 0 0 0 (-2),
  r 827 4 2 0 (-2) (-4) (-1) 0 0 0 0 0 0 0 0 0,
  r (-828) 4 1 1 0 0 (-1) 0 0 0 0 0 0 0 0 0,
  r (-847) 0 0 2 0 (-2) 0 0 0 0 0 0 0 0 0 0,
  r 163 696 0 0 0 0 0 0 8 (-13) 0 0 0 0 0 (-2),
  r 907 0 2 (-2) 0 (-2) 0 0 0 0 0 0 0 0 0 0,
  r 911 0 1 0 (-2) 1 (-1) 0 0 0 0 0 0 0 0 0,
  r (-919) 0 2 0 (-2) (-2) (-1) 0 0 0 0 0 0 0 0 0,
  r 56 (-867) 0 0 0 0 0 0 0 0 0 2 (-5) 0 0 1,
  r (-342) 609 0 0 0 0 0 0 0 2 (-4) 0 0 0 0 0,
  r 40 927 0 0 2 (-2) 0 0 (-5) 6 0 0 0 0 0 0,
  r (-199) 772 0 0 1 (-1) 1 0 0 (-1) 0 (-1) 0 0 0 0,
  r 967 (-4) 1 0 4 (-2) 2 0 0 0 0 0 0 0 0 0,
  r 975 0 1 1 2 (-2) 1 0 0 0 0 0 0 0 0 0,
  r (-975) 4 0 1 2 1 2 0 0 0 0 0 0 0 0 0,
  r 1002 0 2 1 2 (-2) 2 0 0 0 0 0 0 0 0 0,
  r 1007 4 1 0 (-2) 0 1 0 0 0 0 0 0 0 0 0,
  r 692 334 0 0 1 (-1) 1 0 0 (-1) 0 0 (-1) 0 0 0,
  r (-1030) 8 4 0 2 0 2 0 0 0 0 0 0 0 0 0,
  r (-1042) 0 0 0 0 0 0 0 0 1 0 1 0 0 0 2,
  r 1046 8 1 0 (-2) (-4) (-1) 0 0 0 0 0 0 0 0 0,
  r 44 (-1038) 0 0 0 0 0 0 5 (-8) 0 0 0 0 0 (-2),
  r (-1098) 0 1 2 0 (-2) 0 0 0 0 0 0 0 0 0 0,
  r 1098 0 0 3 0 0 0 0 0 0 0 0 0 0 0 0,
  r 1114 (-4) 0 0 2 1 1 0 0 0 0 0 0 0 0 0,
  r (-1130) 0 2 0 0 (-2) (-1) 0 0 (-2) 0 2 0 0 0 0,
  r (-1138) 4 2 1 0 0 0 0 0 0 0 0 0 0 0 0,
  r 1198 (-4) 1 (-1) 0 0 (-1) 0 0 0 0 0 0 0 0 0,
  r 871 354 1 0 0 0 0 0 (-10) 3 0 0 0 0 0 0,
  r 1224 4 1 0 0 (-2) 2 0 0 0 0 0 0 0 0 0,
  r (-1278) 4 0 0 0 1 (-1) 0 0 0 0 0 0 0 0 0,
  r 203 1082 0 0 0 0 0 0 0 0 0 2 0 0 0 1,
  r (-1293) 4 1 0 0 1 0 0 0 0 0 0 0 0 0 0,
  r (-899) 402 1 0 0 0 0 0 (-18) 16 0 0 0 0 0 0,
  r 0 1313 1 0 (-1) 0 0 0 0 0 0 0 0 0 0 0,
  r (-20) 1305 0 0 0 0 0 0 3 (-4) 0 0 0 0 0 0,
  r (-1329) 0 1 0 2 (-1) 2 0 0 0 0 0 0 0 0 0,
  r (-1333) (-4) 0 1 0 (-2) 1 0 0 0 0 0 0 0 0 0,
  r 1332 (-8) 2 0 2 0 0 0 0 0 0 0 0 0 0 0,
  r 1341 (-4) 1 0 2 1 2 0 0 0 0 0 0 0 0 0,
  r (-1348) 0 0 0 0 0 0 0 1 1 0 0 0 0 0 2,
  r (-362) 986 0 0 0 0 0 0 0 0 0 1 0 0 0 0,
  r (-1058) (-310) 0 0 1 (-1) 0 0 0 0 (-2) 0 0 0 0 0,
  r 1086 318 0 0 1 (-1) 1 0 0 0 (-2) 0 0 0 0 0,
  r (-1410) 4 1 0 (-2) 2 (-2) 0 0 0 0 0 0 0 0 0,
  r 1432 (-4) 1 1 2 0 1 0 0 0 0 0 0 0 0 0,
  r (-1437) 0 1 1 0 0 1 0 0 0 0 0 0 0 0 0,
  r 0 1447 1 0 (-1) 0 (-2) 0 0 0 0 0 0 0 0 0,
  r (-1464) 0 0 0 0 0 0 0 0 2 (-2) 0 0 0 0 0,
  r (-326) 1162 0 0 0 0 1 0 0 4 (-8) 3 0 0 0 0,
  r 1492 (-4) 2 (-1) 0 0 0 0 0 0 0 0 0 0 0 0,
  r 1472 (-32) 0 0 0 0 0 0 2 0 0 0 0 0 0 2,
  r 334 1186 0 0 0 0 1 0 0 (-4) 8 (-3) 0 0 0 0,
  r (-1552) 0 0 0 0 1 1 0 0 0 0 0 0 0 0 0,
  r 1569 0 1 0 0 (-2) (-2) 0 0 0 0 0 0 0 0 0,
  r 1388 (-247) 2 0 0 (-2) 0 0 0 (-2) 0 3 0 0 0 0,
  r 1639 (-8) 2 1 2 0 2 0 0 0 0 0 0 0 0 0,
  r 1655 (-8) 0 0 2 2 0 0 0 0 0 0 0 0 0 0,
  r (-1675) 4 1 (-1) 2 0 1 0 0 0 0 0 0 0 0 0,
  r 1643 52 0 0 0 0 0 0 0 2 0 (-2) 0 0 0 0,
  r (-660) 1070 0 0 0 0 0 0 0 1 0 (-2) 0 0 0 0,
  r (-1742) 0 0 3 2 (-2) 2 0 0 0 0 0 0 0 0 0,
  r 1746 0 2 0 0 (-2) 0 0 0 (-2) 0 2 0 0 0 0,
  r 1774 8 0 1 (-2) (-2) (-1) 0 0 0 0 0 0 0 0 0,
  r (-1802) (-4) 1 0 2 (-4) 1 0 0 0 0 0 0 0 0 0,
  r (-72) (-1734) 0 0 2 (-2) 1 0 (-5) 6 0 0 0 0 0 0,
  r 1822 0 0 0 0 0 0 0 2 (-4) 0 0 0 0 0 (-2),
  r (-1842) 0 1 (-1) (-2) 0 (-2) 0 0 0 0 0 0 0 0 0,
  r 1858 4 1 1 (-2) (-2) (-1) 0 0 0 0 0 0 0 0 0,
  r (-1864) 0 0 0 0 2 2 0 0 0 0 0 0 0 0 0,
  r (-1949) 0 0 0 0 0 0 0 4 (-6) 0 0 0 0 0 (-2),
  r (-1941) 8 2 (-1) 2 0 2 0 0 0 0 0 0 0 0 0,
  r 1961 (-8) 1 (-1) 0 2 0 0 0 0 0 0 0 0 0 0,
  r 1958 (-12) 1 0 0 2 (-1) 0 0 0 0 0 0 0 0 0,
  r 1965 (-8) 0 0 0 4 0 0 0 0 0 0 0 0 0 0,
  r (-1997) 12 3 0 2 0 1 0 0 0 0 0 0 0 0 0,
  r 123 (-1913) 0 0 1 (-1) 1 0 0 (-1) 0 2 (-5) 0 0 0,
  r 2101 0 1 (-1) 0 0 1 0 0 0 0 0 0 0 0 0,
  r 2057 64 0 0 0 0 0 0 0 3 0 (-1) 0 0 0 2,
  r 2128 (-8) 0 1 2 2 2 0 0 0 0 0 0 0 0 0,
  r 489 (-1651) 0 0 0 0 0 0 0 6 (-8) 3 0 0 0 2,
  r 489 (-1655) 0 0 0 0 0 0 0 2 (-8) 3 0 0 0 (-2),
  r 2247 (-4) 0 1 0 1 0 0 0 0 0 0 0 0 0 0,
  r 935 1329 0 0 0 0 0 0 8 (-13) 0 0 0 0 0 0,
  r (-2267) (-8) 1 (-1) (-2) (-2) (-2) 0 0 0 0 0 0 0 0 0,
  r (-2299) 4 1 0 (-2) 2 0 0 0 0 0 0 0 0 0 0,
  r (-2328) (-8) 1 1 0 (-2) 1 0 0 0 0 0 0 0 0 0,
  r (-2349) 0 0 1 0 0 (-2) 0 0 0 0 0 0 0 0 0,
  r 2339 (-12) 2 0 0 2 0 0 0 0 0 0 0 0 0 0,
  r (-2347) 16 1 (-1) 2 2 2 0 0 0 0 0 0 0 0 0,
  r 2366 0 1 (-1) 0 (-1) (-2) 0 0 0 0 0 0 0 0 0,
  r (-2379) 0 0 0 0 0 0 0 2 (-2) 0 0 0 0 0 0,
  r (-1953) 509 0 0 0 0 0 0 0 0 0 2 (-5) 0 0 0,
  r 32 2442 0 0 0 0 0 0 2 (-3) 0 0 0 0 0 0,
  r (-1691) 843 0 0 0 0 0 0 8 (-13) 0 0 0 0 0 (-1),
  r (-2542) (-8) 1 0 (-2) (-2) 0 0 0 0 0 0 0 0 0 0,
  r (-2617) 0 0 1 2 (-2) 0 0 0 0 0 0 0 0 0 0,
  r 2654 4 0 1 (-2) 0 (-1) 0 0 0 0 0 0 0 0 0,
  r 2654 (-12) 0 0 2 0 (-1) 0 0 0 0 0 0 0 0 0,
  r (-2677) 8 0 1 0 2 0 0 0 0 0 0 0 0 0 0,
  r (-2761) 20 0 0 2 4 2 0 0 0 0 0 0 0 0 0,
  r (-2800) 0 0 0 2 (-1) 2 0 0 0 0 0 0 0 0 0,
  r 2835 (-16) 0 1 0 0 2 0 0 0 0 0 0 0 0 0,
  r 2850 (-8) 2 0 (-2) 0 1 0 0 0 0 0 0 0 0 0,
  r (-2953) 4 1 1 0 (-2) (-1) 0 0 0 0 0 0 0 0 0,
  r (-3047) 4 1 0 2 (-2) 0 0 0 0 0 0 0 0 0 0]

private def x0Series_6 : List Row := [
  r 3243 (-4) 0 1 2 0 1 0 0 0 0 0 0 0 0 0,
  r (-3322) 8 0 0 2 (-2) (-1) 0 0 0 0 0 0 0 0 0,
  r (-3481) 4 0 1 (-2) 2 0 0 0 0 0 0 0 0 0 0,
  r (-1786) 1710 0 0 0 0 0 0 0 1 (-2) 0 0 0 0 0,
  r (-1830) (-1730) 0 0 0 0 1 0 0 (-1) 2 0 0 0 0 0,
  r 3668 (-4) 0 0 4 (-2) 2 0 0 0 0 0 0 0 0 0,
  r 3715 (-12) 3 0 2 (-2) 2 0 0 0 0 0 0 0 0 0,
  r 3775 4 1 (-1) 0 (-2) 0 0 0 0 0 0 0 0 0 0,
  r (-3857) 8 1 0 0 2 1 0 0 0 0 0 0 0 0 0,
  r 4033 (-4) 2 1 0 (-2) 0 0 0 0 0 0 0 0 0 0,
  r 4054 (-4) 2 0 2 (-2) 1 0 0 0 0 0 0 0 0 0,
  r 0 (-4153) 1 0 (-1) 0 (-1) 0 0 0 0 0 0 0 0 0,
  r (-4058) (-100) 1 0 0 (-1) (-1) 0 0 0 0 0 0 0 0 0,
  r (-4376) 36 2 0 2 2 2 0 0 0 0 0 0 0 0 0,
  r (-4559) (-12) 1 0 (-4) 0 (-2) 0 0 0 0 0 0 0 0 0,
  r (-4638) 0 0 0 0 0 0 0 0 0 0 2 0 0 0 2,
  r 4829 20 2 0 (-2) (-4) (-2) 0 0 0 0 0 0 0 0 0,
  r (-4865) (-115) 0 0 0 0 0 0 0 1 0 (-1) 0 0 0 0,
  r 5102 0 0 2 (-2) 2 (-1) 0 0 0 0 0 0 0 0 0,
  r (-5100) (-12) 2 0 0 (-4) 0 0 0 0 0 0 0 0 0 0,
  r 5132 0 1 1 2 (-2) 2 0 0 0 0 0 0 0 0 0,
  r (-5227) 0 1 (-1) 0 (-1) (-1) 0 0 0 0 0 0 0 0 0,
  r (-5295) 32 1 0 2 2 1 0 0 0 0 0 0 0 0 0,
  r (-5322) (-20) 1 0 0 (-4) 0 0 0 0 0 0 0 0 0 0,
  r (-5481) (-8) 2 0 (-2) (-2) (-2) 0 0 0 0 0 0 0 0 0,
  r (-5566) 16 1 0 0 0 (-2) 0 0 0 0 0 0 0 0 0,
  r 5728 0 0 0 0 0 0 0 0 8 (-16) 4 5 0 0 0,
  r 5907 0 0 0 0 0 0 0 1 (-1) 0 0 0 0 0 0,
  r 6050 36 1 0 (-2) (-4) (-2) 0 0 0 0 0 0 0 0 0,
  r 6265 (-24) 3 0 0 0 0 0 0 0 0 0 0 0 0 0,
  r 6603 (-20) 0 0 2 1 2 0 0 0 0 0 0 0 0 0,
  r 4773 2379 0 0 1 (-1) 1 0 (-8) 12 0 0 0 0 0 0,
  r (-7856) 0 1 0 0 0 2 0 0 0 0 0 0 0 0 0,
  r 0 (-7908) 0 1 (-1) 1 (-1) 0 0 0 0 0 0 0 0 0,
  r 7903 (-24) 1 0 (-2) 2 (-1) 0 0 0 0 0 0 0 0 0,
  r 8214 0 0 0 0 0 0 0 3 (-5) 0 0 0 0 0 (-2),
  r (-1838) 6380 0 0 0 0 0 0 0 4 (-8) 3 0 0 0 0,
  r 8674 (-8) 2 0 0 0 1 0 0 0 0 0 0 0 0 0,
  r 9131 (-40) 2 0 0 0 (-1) 0 0 0 0 0 0 0 0 0,
  r 9869 (-28) 1 1 2 0 2 0 0 0 0 0 0 0 0 0,
  r 10529 44 0 1 (-2) (-2) (-2) 0 0 0 0 0 0 0 0 0,
  r 11214 28 1 1 (-2) (-2) (-2) 0 0 0 0 0 0 0 0 0,
  r (-11449) 32 1 (-1) 2 0 2 0 0 0 0 0 0 0 0 0,
  r (-11540) 60 3 0 2 0 2 0 0 0 0 0 0 0 0 0,
  r 12198 (-8) 2 0 (-2) 0 (-2) 0 0 0 0 0 0 0 0 0,
  r (-13031) 4 1 (-1) 0 (-1) 0 0 0 0 0 0 0 0 0 0,
  r 13281 (-52) 1 0 2 0 0 0 0 0 0 0 0 0 0 0,
  r (-13481) 20 1 1 0 0 0 0 0 0 0 0 0 0 0 0,
  r 14216 20 0 1 2 (-2) 1 0 0 0 0 0 0 0 0 0,
  r 5744 9582 0 0 0 0 0 0 0 0 0 2 (-5) 0 0 (-1),
  r 16134 20 1 0 (-2) 0 0 0 0 0 0 0 0 0 0 0,
  r 16179 24 2 0 0 (-2) 1 0 0 0 0 0 0 0 0 0,
  r (-16826) 20 0 0 0 1 0 0 0 0 0 0 0 0 0 0,
  r (-17295) (-40) 0 1 0 (-2) 0 0 0 0 0 0 0 0 0 0,
  r (-16015) (-1404) 1 0 0 (-1) 0 0 0 0 0 0 0 0 0 0,
  r 18795 (-24) 1 (-1) 0 0 0 0 0 0 0 0 0 0 0 0,
  r 18895 (-12) 0 1 (-2) 2 (-1) 0 0 0 0 0 0 0 0 0,
  r 19664 (-84) 0 0 0 2 (-1) 0 0 0 0 0 0 0 0 0,
  r (-21282) 84 2 0 2 0 1 0 0 0 0 0 0 0 0 0,
  r 22978 (-60) 2 0 0 (-2) (-1) 0 0 0 0 0 0 0 0 0,
  r 23072 8 1 0 2 (-2) 1 0 0 0 0 0 0 0 0 0,
  r (-25054) 8 0 0 0 2 1 0 0 0 0 0 0 0 0 0,
  r 25630 (-28) 2 0 2 (-2) 2 0 0 0 0 0 0 0 0 0,
  r 26154 (-95) 1 0 0 2 0 0 0 0 0 0 0 0 0 0,
  r (-26402) 99 0 0 2 2 1 0 0 0 0 0 0 0 0 0,
  r 28409 32 0 1 (-2) 0 (-2) 0 0 0 0 0 0 0 0 0,
  r (-29237) (-32) 1 1 0 (-2) 0 0 0 0 0 0 0 0 0 0,
  r 30099 (-44) 0 1 2 0 2 0 0 0 0 0 0 0 0 0,
  r (-30578) 175 1 0 2 2 2 0 0 0 0 0 0 0 0 0,
  r (-12267) 20378 0 0 1 (-1) 1 0 0 (-1) 0 (-2) 5 0 0 0,
  r 40591 99 1 0 (-2) (-2) (-1) 0 0 0 0 0 0 0 0 0,
  r 43851 (-56) 2 0 (-2) 0 0 0 0 0 0 0 0 0 0 0,
  r 50665 254 0 1 0 0 (-1) 0 0 0 0 0 0 0 0 0,
  r (-51237) (-147) 1 0 0 (-2) 1 0 0 0 0 0 0 0 0 0,
  r (-55626) 316 0 1 0 0 1 0 0 0 0 0 0 0 0 0,
  r (-60352) 44 1 0 0 (-2) (-1) 0 0 0 0 0 0 0 0 0,
  r (-62824) (-64) 0 2 2 (-2) 2 0 0 0 0 0 0 0 0 0,
  r 66457 (-40) 0 2 0 0 0 0 0 0 0 0 0 0 0 0,
  r (-81313) 40 1 0 (-2) 0 (-1) 0 0 0 0 0 0 0 0 0,
  r (-86648) 52 0 0 2 (-2) 0 0 0 0 0 0 0 0 0 0,
  r 102970 (-263) 0 0 2 0 0 0 0 0 0 0 0 0 0 0,
  r 113748 (-4) 1 0 2 (-2) 2 0 0 0 0 0 0 0 0 0,
  r 116322 (-294) 2 0 0 0 0 0 0 0 0 0 0 0 0 0,
  r (-123496) 521 2 0 2 0 2 0 0 0 0 0 0 0 0 0,
  r (-129202) 0 0 2 (-2) 2 (-2) 0 0 0 0 0 0 0 0 0,
  r (-153409) 629 0 0 2 2 2 0 0 0 0 0 0 0 0 0,
  r (-182549) 123 2 0 (-2) 0 (-1) 0 0 0 0 0 0 0 0 0,
  r 189827 (-72) 2 0 0 (-2) 0 0 0 0 0 0 0 0 0 0,
  r (-205316) 513 1 0 2 0 1 0 0 0 0 0 0 0 0 0,
  r 230758 (-752) 1 0 0 0 (-1) 0 0 0 0 0 0 0 0 0,
  r 237258 593 1 0 (-2) (-2) (-2) 0 0 0 0 0 0 0 0 0,
  r 251185 107 1 0 0 0 1 0 0 0 0 0 0 0 0 0,
  r 252107 (-597) 0 0 0 2 0 0 0 0 0 0 0 0 0 0,
  r (-491093) 76 1 0 (-2) 0 (-2) 0 0 0 0 0 0 0 0 0,
  r 509550 719 0 0 2 (-2) 1 0 0 0 0 0 0 0 0 0,
  r (-624502) (-668) 1 0 0 (-2) 0 0 0 0 0 0 0 0 0 0,
  r (-858495) 442 0 1 (-2) 2 (-2) 0 0 0 0 0 0 0 0 0,
  r (-1199174) 3246 1 0 2 0 2 0 0 0 0 0 0 0 0 0,
  r (-1540685) 1512 0 0 2 0 1 0 0 0 0 0 0 0 0 0,
  r (-2055778) (-2084) 0 1 2 (-2) 2 0 0 0 0 0 0 0 0 0,
  r 2828828 (-3469) 1 0 0 0 0 0 0 0 0 0 0 0 0 0,
  r 5870702 47005 0 1 0 0 0 0 0 0 0 0 0 0 0 0,
  r 8216876 (-2764) 0 0 0 0 2 0 0 0 0 0 0 0 0 0,
  r (-9055222) 11123 0 0 2 0 2 0 0 0 0 0 0 0 0 0,
  r (-52390804) (-54475) 0 0 2 (-2) 2 0 0 0 0 0 0 0 0 0,
  r (-684431844) 132867 0 0 0 0 1 0 0 0 0 0 0 0 0 0]

/-- `X0Series` (xcip06a.cpp:45-5269). -/
def x0Series : List Row := x0Series_0 ++ x0Series_1 ++ x0Series_2 ++ x0Series_3 ++ x0Series_4 ++ x0Series_5 ++ x0Series_6

private def x1Series_0 : List Row := [
  r 0 (-10) 1 (-1) (-2) (-2) (-1) 0 0 0 0 0 0 0 0 0,
  r 0 10 2 0 0 (-2) 2 0 0 0 0 0 0 0 0 0,
  r 0 10 1 2 (-2) (-2) (-2) 0 0 0 0 0 0 0 0 0,
  r (-3) (-7) 1 0 0 0 1 0 (-18) 16 0 0 0 0 0 0,
  r 0 (-10) 2 (-1) (-2) 0 (-1) 0 0 0 0 0 0 0 0 0,
  r 0 (-10) 2 1 0 (-2) 1 0 0 0 0 0 0 0 0 0,
  r (-8) (-2) 0 0 0 0 1 0 0 0 0 1 0 0 0 0,
  r 0 11 1 0 2 0 (-1) 0 0 0 0 0 0 0 0 0,
  r 0 (-11) 0 2 2 (-2) 1 0 0 0 0 0 0 0 0 0,
  r 2 9 0 0 0 0 1 0 0 0 0 2 (-5) 0 0 0,
  r 0 11 2 1 (-2) (-4) (-2) 0 0 0 0 0 0 0 0 0,
  r 2 (-9) 0 0 0 0 1 0 0 0 0 (-2) 5 0 0 0,
  r 0 (-11) 4 0 2 (-2) 2 0 0 0 0 0 0 0 0 0,
  r 0 (-11) 0 0 0 0 0 0 1 (-3) 0 0 0 0 0 (-2),
  r 11 0 0 0 0 0 0 0 2 (-5) 0 0 0 0 0 (-2),
  r 7 5 0 0 0 0 1 0 (-8) 13 0 0 0 0 0 0,
  r 0 (-11) 1 (-1) (-2) 0 (-1) 0 0 0 0 0 0 0 0 0,
  r 0 11 1 (-1) 2 2 1 0 0 0 0 0 0 0 0 0,
  r (-11) 0 0 0 0 0 0 0 3 (-2) 0 0 0 0 0 2,
  r 0 11 0 2 0 0 1 0 0 0 0 0 0 0 0 0,
  r 3 (-9) 1 0 0 (-4) 0 0 0 0 0 0 0 0 0 0,
  r 0 (-11) 0 0 0 0 0 0 6 (-8) 0 0 0 0 0 (-2),
  r 0 12 1 (-1) 0 (-2) (-2) 0 0 0 0 0 0 0 0 0,
  r 0 (-12) 0 0 0 2 (-2) 0 0 0 0 0 0 0 0 0,
  r 0 (-12) 0 0 0 0 0 0 0 1 0 (-3) 0 0 0 (-2),
  r 4 8 1 0 0 0 (-1) 0 (-18) 16 0 0 0 0 0 0,
  r 0 (-12) 0 0 1 (-1) 1 0 0 (-5) 8 (-3) 0 0 0 0,
  r 0 (-12) 0 0 0 0 0 0 0 8 (-16) 4 5 0 0 2,
  r 0 (-12) 2 0 2 (-4) 1 0 0 0 0 0 0 0 0 0,
  r (-2) (-11) 0 0 0 0 0 0 5 (-8) 0 0 0 0 0 (-1),
  r 0 12 0 2 (-2) (-2) (-2) 0 0 0 0 0 0 0 0 0,
  r 1 (-12) 2 1 (-2) 0 (-1) 0 0 0 0 0 0 0 0 0,
  r 0 13 1 0 0 (-4) 1 0 0 0 0 0 0 0 0 0,
  r 0 13 2 0 0 (-4) 1 0 0 0 0 0 0 0 0 0,
  r 8 (-4) 0 0 0 1 0 0 0 0 0 0 0 0 0 0,
  r (-2) (-11) 2 0 0 (-2) 1 0 0 (-2) 0 3 0 0 0 0,
  r 0 13 1 (-1) (-2) 2 (-1) 0 0 0 0 0 0 0 0 0,
  r 0 13 2 0 0 2 1 0 0 0 0 0 0 0 0 0,
  r 1 13 3 0 2 2 2 0 0 0 0 0 0 0 0 0,
  r 0 13 0 0 0 0 0 0 0 0 0 0 2 0 0 2,
  r 0 13 1 (-1) 0 (-2) (-1) 0 0 0 0 0 0 0 0 0,
  r 8 (-6) 0 0 0 0 1 0 8 (-13) 0 0 0 0 0 0,
  r 0 13 0 0 2 4 1 0 0 0 0 0 0 0 0 0,
  r 0 14 0 0 2 (-1) 1 0 0 0 0 0 0 0 0 0,
  r 0 14 0 0 1 (-1) 1 0 0 3 (-8) 3 0 0 0 0,
  r 0 (-14) 1 1 2 2 2 0 0 0 0 0 0 0 0 0,
  r 2 (-12) 1 0 0 (-1) 1 0 0 0 0 0 0 0 0 0,
  r 0 (-14) 0 0 2 (-2) 1 0 (-3) 3 0 0 0 0 0 0,
  r (-1) (-14) 0 0 0 0 0 0 0 4 (-2) 0 0 0 0 2,
  r (-3) (-11) 3 0 0 0 0 0 0 0 0 0 0 0 0 0,
  r 7 8 1 1 0 0 0 0 0 0 0 0 0 0 0 0,
  r 2 12 0 0 0 0 0 0 0 0 0 3 0 0 0 2,
  r 0 (-14) 2 0 0 (-4) (-1) 0 0 0 0 0 0 0 0 0,
  r (-7) (-8) 0 0 0 0 0 0 0 3 (-2) 0 0 0 0 2,
  r 0 15 3 0 0 0 (-1) 0 0 0 0 0 0 0 0 0,
  r (-9) (-6) 0 0 0 0 0 0 0 3 0 (-2) 0 0 0 2,
  r (-7) 8 0 0 0 0 0 0 0 1 2 0 0 0 0 2,
  r 10 (-6) 0 0 0 0 0 0 8 (-15) 0 0 0 0 0 (-2),
  r (-13) 3 0 0 0 0 0 0 4 (-6) 0 0 0 0 0 (-1),
  r 0 15 2 1 0 (-2) (-1) 0 0 0 0 0 0 0 0 0,
  r 0 15 1 1 (-2) 0 (-2) 0 0 0 0 0 0 0 0 0,
  r (-13) (-3) 0 0 0 0 0 0 1 (-1) 0 0 0 0 0 (-1),
  r 1 15 1 0 2 4 2 0 0 0 0 0 0 0 0 0,
  r 0 (-16) 0 0 4 (-2) 1 0 0 0 0 0 0 0 0 0,
  r (-17) 0 0 0 0 0 0 0 2 (-1) 0 0 0 0 0 2,
  r 0 (-17) 3 0 2 (-2) 1 0 0 0 0 0 0 0 0 0,
  r (-8) 9 1 0 (-2) 0 0 0 0 0 0 0 0 0 0 0,
  r 11 6 0 0 0 0 0 0 8 (-11) 0 0 0 0 0 (-2),
  r 0 (-17) 2 0 0 (-2) (-2) 0 0 0 0 0 0 0 0 0,
  r 0 17 1 1 (-2) (-4) (-2) 0 0 0 0 0 0 0 0 0,
  r (-1) (-16) 0 0 0 0 0 0 0 2 0 1 0 0 0 2,
  r (-3) 15 0 0 0 0 0 0 0 2 0 (-1) 0 0 0 2,
  r 0 17 0 0 0 4 1 0 0 0 0 0 0 0 0 0,
  r 0 (-18) 0 0 4 0 2 0 0 0 0 0 0 0 0 0,
  r 0 18 0 0 0 0 0 0 0 4 0 (-2) 0 0 0 2,
  r 6 12 1 0 (-2) 0 (-2) 0 0 4 (-8) 3 0 0 0 0,
  r 10 (-9) 0 0 0 0 0 0 0 8 (-16) 4 5 0 0 (-2),
  r (-9) (-9) 1 (-1) 0 0 0 0 0 0 0 0 0 0 0 0,
  r 0 18 0 1 0 (-2) (-1) 0 0 0 0 0 0 0 0 0,
  r (-6) (-13) 1 0 2 0 2 0 0 1 0 0 0 0 0 0,
  r 0 19 0 0 2 (-3) 2 0 0 0 0 0 0 0 0 0,
  r 0 19 0 0 2 (-4) 1 0 0 0 0 0 0 0 0 0,
  r (-13) 6 0 0 1 (-1) 1 0 0 (-1) 0 0 2 0 0 0,
  r 3 (-17) 0 0 1 (-1) 1 0 (-5) 7 0 0 0 0 0 0,
  r 14 (-6) 0 0 0 0 0 0 0 0 0 0 2 0 0 1,
  r 0 (-19) 0 0 0 0 0 0 5 (-7) 0 0 0 0 0 (-2),
  r (-17) 3 0 0 0 0 0 0 8 (-13) 0 0 0 0 0 (-2),
  r (-17) 3 0 0 1 (-1) 1 0 0 (-1) 0 2 0 0 0 0,
  r 1 21 2 0 2 2 1 0 0 0 0 0 0 0 0 0,
  r 0 21 1 0 0 (-4) (-1) 0 0 0 0 0 0 0 0 0,
  r 0 (-22) 1 0 (-4) 0 (-1) 0 0 0 0 0 0 0 0 0,
  r 0 (-23) 0 1 0 2 1 0 0 0 0 0 0 0 0 0,
  r (-1) (-23) 1 0 4 (-2) 2 0 0 0 0 0 0 0 0 0,
  r 1 23 0 1 2 1 2 0 0 0 0 0 0 0 0 0,
  r 0 23 2 0 (-2) (-4) (-1) 0 0 0 0 0 0 0 0 0,
  r (-1) (-24) 2 1 2 (-2) 2 0 0 0 0 0 0 0 0 0,
  r 1 24 4 0 2 0 2 0 0 0 0 0 0 0 0 0,
  r 0 (-25) 1 1 0 0 (-1) 0 0 0 0 0 0 0 0 0,
  r 14 (-11) 1 1 0 (-2) 0 0 0 0 0 0 0 0 0 0,
  r 1 25 0 0 0 0 0 0 0 1 0 1 0 0 0 2,
  r 9 (-18) 0 1 0 (-2) 0 0 0 0 0 0 0 0 0 0,
  r 25 2 0 0 0 0 0 0 5 (-8) 0 0 0 0 0 (-2),
  r 0 (-27) 2 0 (-2) (-2) (-1) 0 0 0 0 0 0 0 0 0,
  r 26 2 0 0 0 0 0 0 0 0 0 2 (-5) 0 0 1,
  r 23 6 0 0 1 (-1) 1 0 0 (-1) 0 (-1) 0 0 0 0,
  r 0 29 1 0 (-2) 1 (-1) 0 0 0 0 0 0 0 0 0,
  r (-1) (-29) 1 1 2 (-2) 1 0 0 0 0 0 0 0 0 0,
  r (-1) 29 1 0 (-2) (-4) (-1) 0 0 0 0 0 0 0 0 0,
  r (-1) (-30) 1 0 0 (-2) 2 0 0 0 0 0 0 0 0 0,
  r 10 (-21) 0 0 1 (-1) 1 0 0 (-1) 0 0 (-1) 0 0 0,
  r (-7) (-24) 1 0 2 0 0 0 0 0 0 0 0 0 0 0,
  r (-31) 0 0 0 1 0 1 0 0 0 0 0 0 0 0 0,
  r (-1) (-31) 1 0 (-2) 0 1 0 0 0 0 0 0 0 0 0,
  r (-1) (-32) 0 0 2 1 1 0 0 0 0 0 0 0 0 0,
  r 1 32 1 0 2 (-1) 2 0 0 0 0 0 0 0 0 0,
  r (-1) (-32) 1 0 2 1 2 0 0 0 0 0 0 0 0 0,
  r 1 33 0 0 0 0 0 0 1 1 0 0 0 0 0 2,
  r 1 (-34) 2 0 0 (-2) (-1) 0 0 (-2) 0 2 0 0 0 0,
  r 1 (-34) 1 0 (-2) 2 (-2) 0 0 0 0 0 0 0 0 0,
  r (-1) (-36) 0 0 0 0 0 0 2 0 0 0 0 0 0 2,
  r (-1) 36 1 (-1) 0 0 (-1) 0 0 0 0 0 0 0 0 0,
  r 32 (-7) 0 0 0 0 0 0 0 0 0 2 0 0 0 1,
  r (-1) 38 1 0 0 (-2) (-2) 0 0 0 0 0 0 0 0 0,
  r 1 (-39) 0 0 0 1 (-1) 0 0 0 0 0 0 0 0 0,
  r (-39) (-1) 1 0 (-1) 0 (-2) 0 0 0 0 0 0 0 0 0,
  r (-1) (-39) 2 1 2 0 2 0 0 0 0 0 0 0 0 0,
  r 1 40 0 3 2 (-2) 2 0 0 0 0 0 0 0 0 0,
  r 0 41 0 1 0 (-2) 1 0 0 0 0 0 0 0 0 0,
  r 9 (-33) 0 0 1 (-1) 1 0 0 0 (-2) 0 0 0 0 0,
  r (-1) (-41) 1 1 2 0 1 0 0 0 0 0 0 0 0 0,
  r 1 42 1 1 0 0 1 0 0 0 0 0 0 0 0 0,
  r 35 9 0 0 0 0 1 0 0 4 (-8) 3 0 0 0 0,
  r (-1) 44 0 0 0 0 0 0 2 (-4) 0 0 0 0 0 (-2),
  r 0 (-45) 0 0 0 0 0 0 0 3 0 (-1) 0 0 0 2,
  r 1 (-45) 1 (-1) (-2) 0 (-2) 0 0 0 0 0 0 0 0 0,
  r 1 45 0 0 0 2 2 0 0 0 0 0 0 0 0 0,
  r 35 (-11) 0 0 0 0 1 0 0 (-4) 8 (-3) 0 0 0 0,
  r 1 46 0 0 0 1 1 0 0 0 0 0 0 0 0 0,
  r (-24) 24 2 0 (-2) 0 0 0 0 0 0 0 0 0 0 0,
  r 1 46 2 (-1) 2 0 2 0 0 0 0 0 0 0 0 0,
  r 1 (-48) 0 0 0 0 0 0 4 (-6) 0 0 0 0 0 (-2),
  r 45 (-4) 1 0 (-2) (-2) 0 0 0 0 0 0 0 0 0 0,
  r 1 48 1 (-1) 2 0 1 0 0 0 0 0 0 0 0 0,
  r (-1) 50 0 1 (-2) (-2) (-1) 0 0 0 0 0 0 0 0 0,
  r (-41) (-11) 0 0 0 0 0 0 0 6 (-8) 3 0 0 0 2,
  r (-1) (-51) 0 1 2 2 2 0 0 0 0 0 0 0 0 0,
  r (-1) 54 1 1 (-2) (-2) (-1) 0 0 0 0 0 0 0 0 0,
  r (-52) 3 0 0 2 (-2) 1 0 (-5) 6 0 0 0 0 0 0,
  r 1 55 1 0 2 (-4) 1 0 0 0 0 0 0 0 0 0,
  r 1 (-55) 1 (-1) (-2) (-2) (-2) 0 0 0 0 0 0 0 0 0,
  r 1 56 3 0 2 0 1 0 0 0 0 0 0 0 0 0,
  r 1 (-57) 0 1 0 0 (-2) 0 0 0 0 0 0 0 0 0,
  r (-13) (-45) 1 0 0 2 0 0 0 0 0 0 0 0 0 0,
  r 2 56 1 (-1) 2 2 2 0 0 0 0 0 0 0 0 0,
  r 44 14 0 0 0 0 0 0 0 2 (-8) 3 0 0 0 (-2),
  r (-1) 58 1 (-1) 0 (-1) (-2) 0 0 0 0 0 0 0 0 0,
  r (-58) (-3) 0 0 1 (-1) 1 0 0 (-1) 0 2 (-5) 0 0 0,
  r (-1) 62 1 0 0 2 (-1) 0 0 0 0 0 0 0 0 0,
  r (-1) (-62) 1 (-1) 0 0 1 0 0 0 0 0 0 0 0 0,
  r 2 66 0 0 2 4 2 0 0 0 0 0 0 0 0 0,
  r 1 68 0 0 2 (-1) 2 0 0 0 0 0 0 0 0 0,
  r 1 71 1 1 0 (-2) 1 0 0 0 0 0 0 0 0 0,
  r (-1) (-73) 0 1 0 0 2 0 0 0 0 0 0 0 0 0,
  r 43 (-36) 0 0 2 (-2) 0 0 0 0 0 0 0 0 0 0,
  r (-2) 77 0 1 (-2) 0 (-1) 0 0 0 0 0 0 0 0 0,
  r (-1) 83 0 0 2 0 (-1) 0 0 0 0 0 0 0 0 0,
  r (-2) (-87) 2 0 (-2) 0 1 0 0 0 0 0 0 0 0 0,
  r 2 (-87) 1 1 0 (-2) (-1) 0 0 0 0 0 0 0 0 0,
  r 31 60 0 0 0 0 0 0 8 (-13) 0 0 0 0 0 (-1),
  r (-2) (-88) 0 0 4 (-2) 2 0 0 0 0 0 0 0 0 0,
  r (-2) (-89) 3 0 2 (-2) 2 0 0 0 0 0 0 0 0 0,
  r (-2) (-94) 0 1 2 0 1 0 0 0 0 0 0 0 0 0,
  r 2 (-98) 0 0 2 (-2) (-1) 0 0 0 0 0 0 0 0 0,
  r (-51) 56 0 0 0 0 1 0 0 (-1) 2 0 0 0 0 0,
  r 3 104 2 0 2 2 2 0 0 0 0 0 0 0 0 0,
  r 3 (-110) 1 0 (-4) 0 (-2) 0 0 0 0 0 0 0 0 0,
  r 2 111 1 0 0 2 1 0 0 0 0 0 0 0 0 0,
  r 4 (-111) 1 0 0 (-1) (-1) 0 0 0 0 0 0 0 0 0,
  r 2 113 0 0 0 0 0 0 0 0 0 2 0 0 0 2,
  r (-3) 116 2 0 (-2) (-4) (-2) 0 0 0 0 0 0 0 0 0,
  r (-2) (-118) 2 0 2 (-2) 1 0 0 0 0 0 0 0 0 0,
  r (-3) (-124) 1 1 2 (-2) 2 0 0 0 0 0 0 0 0 0,
  r 3 (-132) 2 0 (-2) (-2) (-2) 0 0 0 0 0 0 0 0 0,
  r 3 (-136) 1 0 0 0 (-2) 0 0 0 0 0 0 0 0 0,
  r (-4) 145 1 0 (-2) (-4) (-2) 0 0 0 0 0 0 0 0 0,
  r 4 148 1 0 2 2 1 0 0 0 0 0 0 0 0 0,
  r (-3) 150 0 2 (-2) 2 (-1) 0 0 0 0 0 0 0 0 0,
  r 3 (-157) 1 (-1) 0 (-1) (-1) 0 0 0 0 0 0 0 0 0,
  r 40 (-123) 1 0 0 (-1) 0 0 0 0 0 0 0 0 0 0,
  r (-4) (-159) 0 0 2 1 2 0 0 0 0 0 0 0 0 0,
  r (-52) (-125) 0 0 2 0 0 0 0 0 0 0 0 0 0 0,
  r (-58) (-136) 2 0 0 0 0 0 0 0 0 0 0 0 0 0,
  r 4 191 1 0 0 0 2 0 0 0 0 0 0 0 0 0,
  r (-94) 107 2 0 0 (-2) 0 0 0 0 0 0 0 0 0 0,
  r 199 2 1 0 (-1) 0 (-1) 0 0 0 0 0 0 0 0 0,
  r (-4) 200 0 0 0 0 0 0 3 (-5) 0 0 0 0 0 (-2),
  r 69 (-145) 0 0 1 (-1) 1 0 (-8) 12 0 0 0 0 0 0,
  r (-6) (-237) 1 1 2 0 2 0 0 0 0 0 0 0 0 0,
  r (-4) 240 1 0 (-2) 2 (-1) 0 0 0 0 0 0 0 0 0,
  r (-5) (-253) 2 0 0 0 1 0 0 0 0 0 0 0 0 0]

private def x1Series_1 : List Row := [
  r (-7) 252 0 1 (-2) (-2) (-2) 0 0 0 0 0 0 0 0 0,
  r (-7) 270 1 1 (-2) (-2) (-2) 0 0 0 0 0 0 0 0 0,
  r 7 275 1 (-1) 2 0 2 0 0 0 0 0 0 0 0 0,
  r 8 275 3 0 2 0 2 0 0 0 0 0 0 0 0 0,
  r (-4) 283 2 0 0 0 (-1) 0 0 0 0 0 0 0 0 0,
  r (-6) 293 2 0 (-2) 0 (-2) 0 0 0 0 0 0 0 0 0,
  r (-82) (-273) 0 0 0 2 0 0 0 0 0 0 0 0 0 0,
  r 375 4 0 1 (-1) 1 (-1) 0 0 0 0 0 0 0 0 0,
  r (-371) 38 0 2 0 0 0 0 0 0 0 0 0 0 0 0,
  r (-7) (-427) 0 1 2 (-2) 1 0 0 0 0 0 0 0 0 0,
  r 285 (-177) 0 0 0 0 0 0 0 0 0 2 (-5) 0 0 (-1),
  r (-8) (-493) 2 0 0 (-2) 1 0 0 0 0 0 0 0 0 0,
  r 271 (-276) 1 0 0 (-2) 0 0 0 0 0 0 0 0 0 0,
  r 14 602 2 0 2 0 1 0 0 0 0 0 0 0 0 0,
  r (-14) (-619) 2 0 2 (-2) 2 0 0 0 0 0 0 0 0 0,
  r 34 609 0 1 (-2) 2 (-1) 0 0 0 0 0 0 0 0 0,
  r 35 608 0 0 0 2 (-1) 0 0 0 0 0 0 0 0 0,
  r 27 (-681) 1 0 2 (-2) 1 0 0 0 0 0 0 0 0 0,
  r 33 680 2 0 0 (-2) (-1) 0 0 0 0 0 0 0 0 0,
  r 20 730 1 0 2 2 2 0 0 0 0 0 0 0 0 0,
  r (-30) 731 0 0 0 2 1 0 0 0 0 0 0 0 0 0,
  r (-27) 749 0 0 2 2 1 0 0 0 0 0 0 0 0 0,
  r (-99) 687 0 1 (-2) 0 (-2) 0 0 0 0 0 0 0 0 0,
  r (-101) (-727) 0 1 2 0 2 0 0 0 0 0 0 0 0 0,
  r 618 358 0 0 1 (-1) 1 0 0 (-1) 0 (-2) 5 0 0 0,
  r (-25) 1167 1 0 (-2) (-2) (-1) 0 0 0 0 0 0 0 0 0,
  r (-77) 1440 0 1 0 0 (-1) 0 0 0 0 0 0 0 0 0,
  r (-16) 1555 1 0 0 (-2) 1 0 0 0 0 0 0 0 0 0,
  r (-8) (-1790) 1 0 0 (-2) (-1) 0 0 0 0 0 0 0 0 0,
  r 318 1532 0 2 2 (-2) 2 0 0 0 0 0 0 0 0 0,
  r (-81) 1906 0 1 0 0 1 0 0 0 0 0 0 0 0 0,
  r (-40) (-2405) 1 0 (-2) 0 (-1) 0 0 0 0 0 0 0 0 0,
  r (-1119) (-1507) 1 0 0 0 0 0 0 0 0 0 0 0 0 0,
  r (-61) (-2759) 1 0 2 (-2) 2 0 0 0 0 0 0 0 0 0,
  r 74 2960 2 0 2 0 2 0 0 0 0 0 0 0 0 0,
  r 68 (-3101) 0 2 (-2) 2 (-2) 0 0 0 0 0 0 0 0 0,
  r 92 3678 0 0 2 2 2 0 0 0 0 0 0 0 0 0,
  r (-107) (-5419) 2 0 (-2) 0 (-1) 0 0 0 0 0 0 0 0 0,
  r (-96) 5712 1 0 (-2) (-2) (-2) 0 0 0 0 0 0 0 0 0,
  r (-42) 5894 1 0 2 0 1 0 0 0 0 0 0 0 0 0,
  r 146 7031 1 0 0 0 (-1) 0 0 0 0 0 0 0 0 0,
  r 116 (-7433) 1 0 0 0 1 0 0 0 0 0 0 0 0 0,
  r 216 (-11921) 1 0 (-2) 0 (-2) 0 0 0 0 0 0 0 0 0,
  r 286 (-15491) 0 0 2 (-2) 1 0 0 0 0 0 0 0 0 0,
  r 2387 (-21450) 0 1 (-2) 2 (-2) 0 0 0 0 0 0 0 0 0,
  r 570 28849 1 0 2 0 2 0 0 0 0 0 0 0 0 0,
  r (-17973) 16433 0 1 0 0 0 0 0 0 0 0 0 0 0 0,
  r (-577) 44876 0 0 2 0 1 0 0 0 0 0 0 0 0 0,
  r 5920 50182 0 1 2 (-2) 2 0 0 0 0 0 0 0 0 0,
  r (-3607) (-200436) 0 0 0 0 2 0 0 0 0 0 0 0 0 0,
  r 4144 218791 0 0 2 0 2 0 0 0 0 0 0 0 0 0,
  r 19897 1281401 0 0 2 (-2) 2 0 0 0 0 0 0 0 0 0,
  r (-330973) 20583310 0 0 0 0 1 0 0 0 0 0 0 0 0 0]

/-- `X1Series` (xcip06a.cpp:5276-6288). -/
def x1Series : List Row := x1Series_0 ++ x1Series_1

private def x2Series_0 : List Row := [
  r (-12) 0 1 0 (-2) (-2) (-1) 0 0 0 0 0 0 0 0 0,
  r (-13) 0 2 0 (-2) 0 0 0 0 0 0 0 0 0 0 0,
  r (-15) 0 0 1 0 0 (-1) 0 0 0 0 0 0 0 0 0,
  r 15 1 1 0 0 (-2) 1 0 0 0 0 0 0 0 0 0,
  r 17 0 0 1 0 0 1 0 0 0 0 0 0 0 0 0,
  r 18 (-1) 1 0 0 (-2) (-1) 0 0 0 0 0 0 0 0 0,
  r (-20) 0 0 2 0 0 0 0 0 0 0 0 0 0 0 0,
  r 24 (-1) 1 0 (-2) 0 (-1) 0 0 0 0 0 0 0 0 0,
  r 26 0 0 0 2 (-2) 0 0 0 0 0 0 0 0 0 0,
  r 19 (-9) 0 2 2 (-2) 2 0 0 0 0 0 0 0 0 0,
  r (-31) 0 0 0 2 0 0 0 0 0 0 0 0 0 0 0,
  r (-35) 0 2 0 0 0 0 0 0 0 0 0 0 0 0 0,
  r (-34) 1 1 0 2 (-2) 2 0 0 0 0 0 0 0 0 0,
  r 37 (-2) 2 0 2 0 2 0 0 0 0 0 0 0 0 0,
  r 38 (-1) 0 2 (-2) 2 (-2) 0 0 0 0 0 0 0 0 0,
  r 46 (-2) 0 0 2 2 2 0 0 0 0 0 0 0 0 0,
  r (-56) 0 2 0 0 (-2) 0 0 0 0 0 0 0 0 0 0,
  r 54 (-4) 2 0 (-2) 0 (-1) 0 0 0 0 0 0 0 0 0,
  r 61 2 1 0 2 0 1 0 0 0 0 0 0 0 0 0,
  r (-69) 2 1 0 0 0 (-1) 0 0 0 0 0 0 0 0 0,
  r (-71) (-1) 1 0 (-2) (-2) (-2) 0 0 0 0 0 0 0 0 0,
  r (-75) 0 0 0 0 2 0 0 0 0 0 0 0 0 0 0,
  r (-75) (-2) 1 0 0 0 1 0 0 0 0 0 0 0 0 0,
  r 146 4 1 0 (-2) 0 (-2) 0 0 0 0 0 0 0 0 0,
  r (-152) (-7) 0 0 2 (-2) 1 0 0 0 0 0 0 0 0 0,
  r 186 0 1 0 0 (-2) 0 0 0 0 0 0 0 0 0 0,
  r 254 60 0 1 (-2) 2 (-2) 0 0 0 0 0 0 0 0 0,
  r 357 (-6) 1 0 2 0 2 0 0 0 0 0 0 0 0 0,
  r 459 17 0 0 2 0 1 0 0 0 0 0 0 0 0 0,
  r 608 (-136) 0 1 2 (-2) 2 0 0 0 0 0 0 0 0 0,
  r (-841) 1 1 0 0 0 0 0 0 0 0 0 0 0 0 0,
  r (-1736) (-50) 0 1 0 0 0 0 0 0 0 0 0 0 0 0,
  r (-2443) 47 0 0 0 0 2 0 0 0 0 0 0 0 0 0,
  r 2692 (-46) 0 0 2 0 2 0 0 0 0 0 0 0 0 0,
  r 15574 (-275) 0 0 2 (-2) 2 0 0 0 0 0 0 0 0 0,
  r 203798 8146 0 0 0 0 1 0 0 0 0 0 0 0 0 0]

/-- `X2Series` (xcip06a.cpp:6295-6439). -/
def x2Series : List Row := x2Series_0

private def x3Series_0 : List Row := [
  r 0 20 0 0 0 0 2 0 0 0 0 0 0 0 0 0,
  r 0 (-22) 0 0 2 0 2 0 0 0 0 0 0 0 0 0,
  r 0 (-127) 0 0 2 (-2) 2 0 0 0 0 0 0 0 0 0,
  r 173 (-2039) 0 0 0 0 1 0 0 0 0 0 0 0 0 0]

/-- `X3Series` (xcip06a.cpp:6446-6462). -/
def x3Series : List Row := x3Series_0

private def x4Series_0 : List Row := [
  r (-10) (-2) 0 0 0 0 1 0 0 0 0 0 0 0 0 0]

/-- `X4Series` (xcip06a.cpp:6464-6467). -/
def x4Series : List Row := x4Series_0

end Verif.Cip
